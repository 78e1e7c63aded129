import Verif.Lemmas.Cost
import Verif.Spec.Cost
import Verif.Props.SafetyProps

/-! # C111: the work of a query and of building a mesh -/

namespace Enve
open Scalar
variable {α : Type} [Scalar α]

/-- **C111 (queries), in any arithmetic.**  A query of a loaded mesh of `n` triangles makes at most `2 n - 1` box tests, wherever the
box is and whatever it overlaps.  (`interC` is the search with a counter, and finds the same as `inter`.) -/
theorem C111_query_partial (np : NumParse α) (m : Mesh α) (hm : m.Loaded np) (q : Box α) :
    ∃ pairs tests, Tree.interC m.tree (Tree.build [q]) false = .ok (pairs, tests) ∧
      Tree.inter m.tree (Tree.build [q]) false = .ok pairs ∧ tests ≤ 2 * m.triangles.length - 1 := by
  obtain ⟨hm, hne⟩ := hm.consistent
  have htree : m.tree = Tree.build (m.triangles.map (·.bbox)) := by
    conv_lhs => rw [hm.built]
    rfl
  have hq : (Tree.build [q]).Full := Tree.full_build [q] (by simp)
  have hf : m.tree.Full := by rw [htree]; exact Tree.full_build _ (by simpa using hne)
  obtain ⟨pairs, h1, -⟩ := Tree.inter_full m.tree (Tree.build [q]) false hf hq
  have h2 := Tree.interC_fst m.tree (Tree.build [q]) false
  rw [h1, Res.bind_eq_ok] at h2
  obtain ⟨⟨pairs', tests⟩, h3, h4⟩ := h2
  cases h4
  refine ⟨_, tests, h3, h1, ?_⟩
  have h5 := Tree.interC_le _ _ _ h3
  have n1 := (C12_build_keeps_boxes (m.triangles.map (·.bbox))).2.2 (by simpa using hne)
  have n2 := (C12_build_keeps_boxes [q]).2.2 (by simp)
  rw [htree, n1, n2] at h5
  simpa using h5

theorem Tree.innerWith_none (p : Box α → Prop) [DecidablePred p] (bs : List (Box α)) (b : Box α) (P : α → Prop) (ho : OrderOn P)
    (hb : b.WF P) (hw : ∀ c ∈ bs, c.WF P) (henc : ∀ c ∈ bs, b.Encloses c) (hne : bs ≠ [])
    (hp : ∀ d : Box α, d.WF P → b.Encloses d → ¬ p d) : (Tree.build bs).innerWith p = 0 := by
  induction hl : bs.length using Nat.strongRecOn generalizing bs with
  | _ n ih =>
    subst hl
    match bs with
    | [] => exact absurd rfl hne
    | [c] => rw [Tree.build]; rfl
    | b0 :: b1 :: bs =>
      obtain ⟨neg, pos, n1, n2, n3, e, -, n4⟩ := Tree.buildWork_node b0 b1 bs
      obtain ⟨-, -, -, -, h5⟩ := Tree.split_spec b0 b1 bs
      rw [← n4] at h5
      have l1 : 0 < neg.length := List.length_pos_of_ne_nil n1
      have l2 : 0 < pos.length := List.length_pos_of_ne_nil n2
      have m1 : ∀ c ∈ neg, c ∈ b0 :: b1 :: bs := fun c hc => h5.mem_iff.1 (by simp [hc])
      have m2 : ∀ c ∈ pos, c ∈ b0 :: b1 :: bs := fun c hc => h5.mem_iff.1 (by simp [hc])
      have i1 := ih neg.length (by omega) neg (fun c hc => hw c (m1 c hc)) (fun c hc => henc c (m1 c hc)) n1 rfl
      have i2 := ih pos.length (by omega) pos (fun c hc => hw c (m2 c hc)) (fun c hc => henc c (m2 c hc)) n2 rfl
      have w := Box.ofBoxes_spec ho (b0 :: b1 :: bs) (by simp) hw 0 0
      rw [e, Tree.innerWith, Tree.innerWithL, Tree.innerWithL, Tree.innerWithL, i1, i2,
        if_neg (hp _ w.1 (Box.ofBoxes_least ho (b0 :: b1 :: bs) (by simp) hw 0 0 henc))]

/-- The count of a search with one box. -/
theorem Tree.interC_count (ho : OrderOn P) (bs : List (Box α)) (hw : ∀ c ∈ bs, c.WF P) (hne : bs ≠ []) (q : Box α)
    (hq : q.WF P) (s : Bool) : ∃ pairs, Tree.interC (.mk (some q) []) (Tree.build bs) s =
      .ok (pairs, 1 + 2 * (Tree.build bs).innerWith fun b => b.intersects q = true) := by
  induction hl : bs.length using Nat.strongRecOn generalizing bs with
  | _ n ih =>
    subst hl
    match bs with
    | [] => exact absurd rfl hne
    | [c] =>
      rw [Tree.build, Tree.interC.eq_def]
      dsimp only
      split <;> exact ⟨_, rfl⟩
    | b0 :: b1 :: bs =>
      obtain ⟨neg, pos, n1, n2, n3, e, -, n4⟩ := Tree.buildWork_node b0 b1 bs
      obtain ⟨-, -, -, -, h5⟩ := Tree.split_spec b0 b1 bs
      rw [← n4] at h5
      have l1 : 0 < neg.length := List.length_pos_of_ne_nil n1
      have l2 : 0 < pos.length := List.length_pos_of_ne_nil n2
      have m1 : ∀ c ∈ neg, c ∈ b0 :: b1 :: bs := fun c hc => h5.mem_iff.1 (by simp [hc])
      have m2 : ∀ c ∈ pos, c ∈ b0 :: b1 :: bs := fun c hc => h5.mem_iff.1 (by simp [hc])
      have w := Box.ofBoxes_spec ho (b0 :: b1 :: bs) (by simp) hw 0 0
      rw [e, Tree.interC.eq_def]
      dsimp only
      by_cases hi : (Box.ofBoxes (b0 :: b1 :: bs) 0 0).intersects q = true
      · obtain ⟨p1, i1⟩ := ih neg.length (by omega) neg (fun c hc => hw c (m1 c hc)) n1 rfl
        obtain ⟨p2, i2⟩ := ih pos.length (by omega) pos (fun c hc => hw c (m2 c hc)) n2 rfl
        rw [if_neg (by simp [hi]), Tree.interListC, i1, Tree.interListC, i2, Tree.interListC]
        refine ⟨p1 ++ (p2 ++ []), ?_⟩
        simp only [Res.bind_ok, Res.pure_eq, Tree.innerWith, Tree.innerWithL, hi, if_true]
        congr 2
        omega
      · have z : ∀ l : List (Box α), (∀ c ∈ l, c ∈ b0 :: b1 :: bs) → l ≠ [] →
            (Tree.build l).innerWith (fun b => b.intersects q = true) = 0 := by
          intro l hl hn
          refine Tree.innerWith_none _ l (Box.ofBoxes (b0 :: b1 :: bs) 0 0) P ho w.1 (fun c hc => hw c (hl c hc))
            (fun c hc => w.2 c (hl c hc)) hn fun d hd he hdi => hi ?_
          exact Box.Encloses.intersects ho w.1 hd hq hq he (Box.Encloses.refl ho hq) hdi
        rw [if_pos (by simp [hi])]
        refine ⟨[], ?_⟩
        simp only [Tree.innerWith, Tree.innerWithL, hi, z neg m1 n1, z pos m2 n2]
        simp

/-- The count does not depend on the order of the two trees. -/
theorem Tree.interC_turn {q : Box α} {t : Tree α} {s : Bool} {pairs : List (Box α × Box α)} {n : Nat}
    (h : Tree.interC (.mk (some q) []) t (!s) = .ok (pairs, n)) :
    ∃ pairs', Tree.interC t (.mk (some q) []) s = .ok (pairs', n) := by
  match t with
  | .mk none cs => rw [Tree.interC.eq_def] at h; cases h
  | .mk (some b) [] =>
    rw [Tree.interC.eq_def] at h ⊢
    dsimp only at h ⊢
    split at h <;> cases h <;> split <;> exact ⟨_, rfl⟩
  | .mk (some b) (c :: cs) =>
    rw [Tree.interC.eq_def] at h ⊢
    dsimp only at h ⊢
    rw [Box.intersects_comm] at h
    split at h
    · rw [if_pos (by assumption)]; cases h; exact ⟨_, rfl⟩
    · rw [if_neg (by assumption)]; exact ⟨_, h⟩

theorem Tree.innerWith_all (ho : OrderOn P) (bs : List (Box α)) (hw : ∀ c ∈ bs, c.WF P) (hne : bs ≠ []) (q : Box α)
    (hq : q.WF P) (hi : ∀ c ∈ bs, c.intersects q = true) :
    (Tree.build bs).innerWith (fun b => b.intersects q = true) + 1 = bs.length := by
  induction hl : bs.length using Nat.strongRecOn generalizing bs with
  | _ n ih =>
    subst hl
    match bs with
    | [] => exact absurd rfl hne
    | [c] => rw [Tree.build]; rfl
    | b0 :: b1 :: bs =>
      obtain ⟨neg, pos, n1, n2, n3, e, -, n4⟩ := Tree.buildWork_node b0 b1 bs
      obtain ⟨-, -, -, -, h5⟩ := Tree.split_spec b0 b1 bs
      rw [← n4] at h5
      have l1 : 0 < neg.length := List.length_pos_of_ne_nil n1
      have l2 : 0 < pos.length := List.length_pos_of_ne_nil n2
      have m1 : ∀ c ∈ neg, c ∈ b0 :: b1 :: bs := fun c hc => h5.mem_iff.1 (by simp [hc])
      have m2 : ∀ c ∈ pos, c ∈ b0 :: b1 :: bs := fun c hc => h5.mem_iff.1 (by simp [hc])
      have i1 := ih neg.length (by omega) neg (fun c hc => hw c (m1 c hc)) n1 (fun c hc => hi c (m1 c hc)) rfl
      have i2 := ih pos.length (by omega) pos (fun c hc => hw c (m2 c hc)) n2 (fun c hc => hi c (m2 c hc)) rfl
      have w := Box.ofBoxes_spec ho (b0 :: b1 :: bs) (by simp) hw 0 0
      have hb : (Box.ofBoxes (b0 :: b1 :: bs) 0 0).intersects q = true :=
        Box.Encloses.intersects ho w.1 (hw b0 (by simp)) hq hq (w.2 b0 (by simp)) (Box.Encloses.refl ho hq) (hi b0 (by simp))
      rw [e, Tree.innerWith, Tree.innerWithL, Tree.innerWithL, Tree.innerWithL, if_pos hb]
      omega

/-- **C111 (queries), exactly.**  Where boxes can be compared (`OrderOn`), a query makes one box test for the root and two for every
inner node whose box meets the query, no more and no fewer.  If the query meets no part of the mesh's box that is one test; if it meets
every triangle's box it is the `2 n - 1` of `C111_query_partial`. -/
theorem C111_query_exact (ho : OrderOn P) (np : NumParse α) (m : Mesh α) (hm : m.Loaded np) (hv : m.VerticesIn P) (q : Box α)
    (hq : q.WF P) : ∃ pairs tests, Tree.interC m.tree (Tree.build [q]) false = .ok (pairs, tests) ∧
      Tree.inter m.tree (Tree.build [q]) false = .ok pairs ∧
      tests = 1 + 2 * m.tree.innerWith (fun b => b.intersects q = true) ∧
      ((∀ t ∈ m.triangles, t.bbox.intersects q = true) → tests = 2 * m.triangles.length - 1) := by
  obtain ⟨hm', hne⟩ := hm.consistent
  have htree : m.tree = Tree.build (m.triangles.map (·.bbox)) := by
    conv_lhs => rw [hm'.built]
    rfl
  have hwf : ∀ b ∈ m.triangles.map (·.bbox), b.WF P := by
    intro b hb
    obtain ⟨t, ht, rfl⟩ := List.mem_map.1 hb
    exact (hm'.constructed t ht).bbox_WF ho (hv t ht).1 (hv t ht).2.1 (hv t ht).2.2
  have hne' : m.triangles.map (·.bbox) ≠ [] := by simpa using hne
  obtain ⟨p1, h1⟩ := Tree.interC_count ho _ hwf hne' q hq true
  obtain ⟨p2, h2⟩ := Tree.interC_turn (s := false) h1
  have hb : Tree.build [q] = .mk (some q) [] := by rw [Tree.build]
  have h3 := Tree.interC_fst m.tree (Tree.build [q]) false
  rw [htree, hb, h2] at h3
  refine ⟨p2, _, by rw [htree, hb]; exact h2, ?_, by rw [htree], fun hall => ?_⟩
  · rw [htree, hb, ← h3]; rfl
  · have := Tree.innerWith_all ho _ hwf hne' q hq (by simpa using hall)
    rw [List.length_map] at this
    omega

/-- **C111 (depth and construction), in any arithmetic.**  The tree of `n` boxes is at most `n` high, hence no recursion is deeper, and
building it handles at most `n (n + 1) / 2 - 1` boxes. -/
theorem C111_build_partial (bs : List (Box α)) (hne : bs ≠ []) :
    (Tree.build bs).height ≤ bs.length ∧ 2 * Tree.buildWork bs + 2 ≤ bs.length * (bs.length + 1) := by
  induction hl : bs.length using Nat.strongRecOn generalizing bs with
  | _ n ih =>
    subst hl
    match bs with
    | [] => exact absurd rfl hne
    | [b] => rw [Tree.build, Tree.buildWork]; simp [Tree.height, Tree.heightL]
    | b0 :: b1 :: bs =>
      obtain ⟨neg, pos, h1, h2, h3, h4, h5, -⟩ := Tree.buildWork_node b0 b1 bs
      have p1 := List.length_pos_iff.2 h1
      have p2 := List.length_pos_iff.2 h2
      obtain ⟨a1, a2⟩ := ih neg.length (by omega) neg h1 rfl
      obtain ⟨c1, c2⟩ := ih pos.length (by omega) pos h2 rfl
      rw [h4, h5]
      refine ⟨?_, ?_⟩
      · simp only [Tree.height, Tree.heightL]
        have := Nat.max_le.2 ⟨show (Tree.build neg).height ≤ (b0 :: b1 :: bs).length - 1 by omega,
          Nat.max_le.2 ⟨show (Tree.build pos).height ≤ (b0 :: b1 :: bs).length - 1 by omega, Nat.zero_le _⟩⟩
        have e : 1 ≤ (b0 :: b1 :: bs).length := by simp
        omega
      · rw [← h3]
        generalize neg.length = a at *
        generalize pos.length = b at *
        nlinarith [Nat.mul_le_mul p1 p2]

namespace Chain

/-- A point on the x axis. -/
noncomputable def pt (k : Nat) : Box ℝ := ⟨⟨4 ^ k, 0, 0⟩, ⟨4 ^ k, 0, 0⟩, k, 0⟩

/-- Points with growing distances. -/
noncomputable def pts : Nat → List (Box ℝ)
  | 0 => []
  | n + 1 => pts n ++ [pt n]

theorem length (n : Nat) : (pts n).length = n := by
  induction n with
  | zero => rfl
  | succ n ih => simp [pts, ih]

theorem mem {n : Nat} {b : Box ℝ} (h : b ∈ pts n) : ∃ k < n, b = pt k := by
  induction n with
  | zero => simp [pts] at h
  | succ n ih =>
    rcases List.mem_append.1 h with h | h
    · obtain ⟨k, hk, rfl⟩ := ih h; exact ⟨k, by omega, rfl⟩
    · exact ⟨n, by omega, by simpa using h⟩

theorem mem' {n k : Nat} (h : k < n) : pt k ∈ pts n := by
  induction n with
  | zero => omega
  | succ n ih =>
    rcases Nat.lt_or_ge k n with h' | h'
    · exact List.mem_append_left _ (ih h')
    · have : k = n := by omega
      subst this
      exact List.mem_append_right _ (by simp)

theorem wf (k : Nat) : (pt k).WF fun _ => True := by simp [Box.real_WF, pt]

/-- The box around the points. -/
theorem merged (n : Nat) : (Box.ofBoxes (pts (n + 2)) 0 0).min = ⟨1, 0, 0⟩ ∧
    (Box.ofBoxes (pts (n + 2)) 0 0).max = ⟨4 ^ (n + 1), 0, 0⟩ := by
  have hwf : ∀ c ∈ pts (n + 2), c.WF fun _ => True := by
    intro c hc; obtain ⟨k, -, rfl⟩ := mem hc; exact wf k
  have hne : pts (n + 2) ≠ [] := by simp [pts]
  have h1 := (Box.ofBoxes_spec OrderOn.real (pts (n + 2)) hne hwf 0 0).2
  have h2 := Box.ofBoxes_least OrderOn.real (pts (n + 2)) hne hwf 0 0 (d := ⟨⟨1, 0, 0⟩, ⟨4 ^ (n + 1), 0, 0⟩, 0, 0⟩) (by
    intro c hc
    obtain ⟨k, hk, rfl⟩ := mem hc
    have a : (1 : ℝ) ≤ 4 ^ k := one_le_pow₀ (by norm_num)
    have b : (4 : ℝ) ^ k ≤ 4 ^ (n + 1) := pow_le_pow_right₀ (by norm_num) (by omega)
    simp [Box.Encloses, V3.Le, pt, a, b])
  have h0 := h1 _ (mem' (show 0 < n + 2 by omega))
  have hl := h1 _ (mem' (show n + 1 < n + 2 by omega))
  simp only [Box.Encloses, V3.Le, pt, real_le, decide_eq_true_eq, pow_zero] at h0 h2 hl
  obtain ⟨⟨a1, a2, a3⟩, a4, a5, a6⟩ := h0
  obtain ⟨⟨b1, b2, b3⟩, b4, b5, b6⟩ := hl
  obtain ⟨⟨c1, c2, c3⟩, c4, c5, c6⟩ := h2
  generalize Box.ofBoxes (pts (n + 2)) 0 0 = m at *
  obtain ⟨⟨m1, m2, m3⟩, ⟨m4, m5, m6⟩, i, p⟩ := m
  dsimp only at *
  constructor <;> congr 1 <;> linarith

/-- Each time only the last point is split off. -/
theorem split (n : Nat) : Tree.rebalance (Tree.partition (Box.ofBoxes (pts (n + 2)) 0 0) (pts (n + 2))) = (pts (n + 1), [pt (n + 1)]) := by
  obtain ⟨h1, h2⟩ := merged n
  have a : (4 : ℝ) ≤ 4 ^ (n + 1) := by
    calc (4 : ℝ) = 4 ^ 1 := by norm_num
      _ ≤ 4 ^ (n + 1) := pow_le_pow_right₀ (by norm_num) (by omega)
  have hp : Tree.partition (Box.ofBoxes (pts (n + 2)) 0 0) (pts (n + 2)) = (pts (n + 1), [pt (n + 1)]) := by
    unfold Tree.partition
    rw [h1, h2]
    have e : (decide ((0 : ℝ) < 4 ^ (n + 1) - 1)) = true := decide_eq_true (by linarith)
    simp only [real_sub, real_lt, sub_zero, e, Bool.and_self, if_true]
    have hpos : ∀ k, ((decide (((4 : ℝ) ^ (n + 1) + 1) / 2 < ((4 : ℝ) ^ k + 4 ^ k) / 2)) = true) ↔ n + 1 ≤ k := by
      intro k
      rw [decide_eq_true_eq]
      constructor
      · intro h
        by_contra hk
        have : (4 : ℝ) ^ k ≤ 4 ^ n := pow_le_pow_right₀ (by norm_num) (by omega)
        have e4 : (4 : ℝ) ^ (n + 1) = 4 * 4 ^ n := by ring
        have : (0 : ℝ) < 4 ^ n := by positivity
        linarith
      · intro hk
        have : (4 : ℝ) ^ (n + 1) ≤ 4 ^ k := pow_le_pow_right₀ (by norm_num) hk
        linarith
    have hlow : ∀ c ∈ pts (n + 1), ¬ ((decide (((4 : ℝ) ^ (n + 1) + 1) / 2 < (c.min.x + c.max.x) / 2)) = true) := by
      intro c hc
      obtain ⟨k, hk, rfl⟩ := mem hc
      rw [show (pt k).min.x = 4 ^ k from rfl, show (pt k).max.x = 4 ^ k from rfl, hpos]
      omega
    have hhigh : (decide (((4 : ℝ) ^ (n + 1) + 1) / 2 < ((pt (n + 1)).min.x + (pt (n + 1)).max.x) / 2)) = true :=
      (hpos (n + 1)).2 le_rfl
    rw [pts]
    simp only [real_add, real_div, real_two, List.filter_append]
    refine Prod.ext ?_ ?_
    · dsimp only
      rw [List.filter_eq_self.2 (fun c hc => by simpa using hlow c hc)]
      simp [hhigh]
    · dsimp only
      rw [List.filter_eq_nil_iff.2 (fun c hc => by simpa using hlow c hc)]
      simp [hhigh]
  rw [hp]
  cases h : pts (n + 1) with
  | nil => simp [pts] at h
  | cons b bs => rfl

theorem built (n : Nat) : (Tree.build (pts (n + 1))).height = n + 1 ∧ 2 * Tree.buildWork (pts (n + 1)) + 2 = (n + 1) * (n + 2) := by
  induction n with
  | zero => simp [pts, Tree.build, Tree.height, Tree.heightL, Tree.buildWork]
  | succ n ih =>
    obtain ⟨b0, b1, bs, e⟩ : ∃ b0 b1 bs, pts (n + 2) = b0 :: b1 :: bs := by
      have := length (n + 2)
      match h : pts (n + 2) with
      | [] => rw [h] at this; simp at this
      | [_] => rw [h] at this; simp at this
      | b0 :: b1 :: bs => exact ⟨_, _, _, rfl⟩
    obtain ⟨neg, pos, -, -, -, h4, h5, h6⟩ := Tree.buildWork_node b0 b1 bs
    rw [← e] at h4 h5 h6
    rw [split] at h6
    obtain ⟨rfl, rfl⟩ := Prod.mk.inj h6
    rw [h4, h5, length]
    simp only [Tree.height, Tree.heightL, ih.1, Tree.build, Tree.buildWork]
    refine ⟨?_, by nlinarith [ih.2]⟩
    simp
    omega

end Chain

/-- **The tree is not balanced.**  For every `n` there are `n` boxes for which it is `n` high, and to build it takes `n (n + 1) / 2 - 1`
steps. -/
theorem C111_balance_refuted (n : Nat) (hn : 1 ≤ n) :
    ∃ bs : List (Box ℝ), bs.length = n ∧ (∀ b ∈ bs, b.WF fun _ => True) ∧ (Tree.build bs).height = n ∧
      2 * Tree.buildWork bs + 2 = n * (n + 1) := by
  obtain ⟨k, rfl⟩ : ∃ k, n = k + 1 := ⟨n - 1, by omega⟩
  refine ⟨Chain.pts (k + 1), Chain.length _, fun b hb => ?_, Chain.built k⟩
  obtain ⟨j, -, rfl⟩ := Chain.mem hb
  exact Chain.wf j

/-- A loaded mesh is searched. -/
example : ∃ m : Mesh ℝ, m.Loaded demoNum ∧ m.triangles ≠ [] ∧ ∃ pairs tests,
    Tree.interC m.tree (Tree.build [Demo.around 0]) false = .ok (pairs, tests) ∧ tests ≤ 2 * m.triangles.length - 1 := by
  obtain ⟨m, -, h1, -, h3⟩ := C19_rdf_load demoNum "a".toList _ Affine.id _ _ demo_rdfText
  have hl : m.Loaded demoNum := .inl ⟨_, _, _, h1⟩
  obtain ⟨pairs, tests, e, -, h⟩ := C111_query_partial demoNum m hl (Demo.around 0)
  obtain ⟨t, p, q, r, e1, -⟩ := h3 0 0 1 2 1 rfl
  exact ⟨m, hl, List.ne_nil_of_mem (List.mem_of_getElem? e1), pairs, tests, e, h⟩

end Enve
