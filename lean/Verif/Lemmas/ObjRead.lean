import Verif.Lemmas.RdfRead

/-! # Reading OBJ texts -/

namespace Enve
namespace Mesh
open Scalar Spec
variable {α : Type} [Scalar α]

theorem objLine_blank {np : NumParse α} {friction : α} {pose : Affine α} {s : LoadState α}
    {l : List Char} (h : Blank l) : objLine np friction pose s l = .ok s := by
  unfold objLine
  simp only [Text.firstToken_blank h]
  exact (if_neg (by decide)).trans (if_neg (by decide))

theorem objLine_other {np : NumParse α} {friction : α} {pose : Affine α} {s : LoadState α}
    {l w : List Char} {ws : List (List Char)} (hl : WordLine l (w :: ws)) (hv : w ≠ "v".toList)
    (hf : w ≠ "f".toList) : objLine np friction pose s l = .ok s := by
  unfold objLine
  simp only [(Text.words_first_tail hl.1 hl.2).1]
  exact (if_neg hv).trans (if_neg hf)

theorem objLine_v {np : NumParse α} {friction : α} {pose : Affine α} {s : LoadState α}
    {l : List Char} {ws : List (List Char)} (hl : WordLine l ("v".toList :: ws)) :
    objLine np friction pose s l =
      (parseNode np pose l >>= fun p => return { s with nodes := s.nodes ++ [p] }) := by
  unfold objLine
  simp only [(Text.words_first_tail hl.1 hl.2).1]
  exact if_pos trivial

theorem objLine_f {np : NumParse α} {friction : α} {pose : Affine α} {s : LoadState α}
    {l : List Char} {ws : List (List Char)} (hl : WordLine l ("f".toList :: ws)) :
    objLine np friction pose s l =
      (parseObjFace np friction s.nodes s.elements l >>= fun t =>
        return { s with triangles := s.triangles ++ [t], elements := s.elements + 1 }) := by
  unfold objLine
  simp only [(Text.words_first_tail hl.1 hl.2).1]
  exact (if_neg (by decide)).trans (if_pos trivial)

omit [Scalar α] in
theorem stoiMinus1_of {np : NumParse α} {a : List Char} {i : Nat} (ha : np.stoi a = some (i : Int))
    (h1 : 1 ≤ i) : stoiMinus1 np a = .ok ((i - 1 : Nat) : Int) := by
  have : ((i : Int) = -2147483648) ↔ False := by constructor <;> intro h; omega; exact h.elim
  simp only [stoiMinus1, stoi, ha, Res.bind_ok, this, if_false, Res.pure_eq]
  congr 1; omega

theorem parseObjFace_of {np : NumParse α} {friction : α} {nodes : List (V3 α)} {id : Nat}
    {l a b c : List Char} {i j k : Nat} {p q r : V3 α}
    (hl : WordLine l ["f".toList, a, b, c])
    (ha : np.stoi a = some (i : Int)) (hb : np.stoi b = some (j : Int))
    (hc : np.stoi c = some (k : Int)) (hi : 1 ≤ i) (hj : 1 ≤ j) (hk : 1 ≤ k)
    (hf : (zero <=. friction) = true)
    (hp : nodes[i - 1]? = some p) (hq : nodes[j - 1]? = some q) (hr : nodes[k - 1]? = some r) :
    ∃ t, parseObjFace np friction nodes id l = .ok t ∧ t.id = id ∧ t.friction = friction ∧
      t.tri = ⟨p, q, r⟩ := by
  obtain ⟨t, h1, h2⟩ := make_eq (id := id) p q r hf
  refine ⟨t, ?_, h2⟩
  simp [parseObjFace, Text.split_of_words (Text.words_first_tail hl.1 hl.2).2, stoiMinus1_of ha hi,
    stoiMinus1_of hb hj, stoiMinus1_of hc hk, nodeAt, hp, hq, hr, h1]

/-- The triangle `t` is face `e` on vertices `ns`. -/
def FaceIs (friction : α) (pose : Affine α) (ns : List (α × α × α)) (e : Nat × Nat × Nat)
    (t : TriangleGround α) : Prop :=
  ∃ p q r, ns[e.1 - 1]? = some p ∧ ns[e.2.1 - 1]? = some q ∧ ns[e.2.2 - 1]? = some r ∧
    t.tri = ⟨pose.apply ⟨p.1, p.2.1, p.2.2⟩, pose.apply ⟨q.1, q.2.1, q.2.2⟩,
      pose.apply ⟨r.1, r.2.1, r.2.2⟩⟩ ∧ t.friction = friction

theorem FaceIs.mono {friction : α} {pose : Affine α} {ns : List (α × α × α)}
    {e : Nat × Nat × Nat} {t : TriangleGround α} (h : FaceIs friction pose ns e t)
    (ms : List (α × α × α)) : FaceIs friction pose (ns ++ ms) e t := by
  obtain ⟨p, q, r, h1, h2, h3, h4⟩ := h
  have key : ∀ {i : Nat} {p}, ns[i]? = some p → (ns ++ ms)[i]? = some p := by
    intro i p hp
    rw [List.getElem?_append_left (List.getElem?_eq_some_iff.mp hp).1]; exact hp
  exact ⟨p, q, r, key h1, key h2, key h3, h4⟩

/-- The loader's variables agree with what has been read. -/
structure ObjMatches (friction : α) (pose : Affine α) (old : List (TriangleGround α))
    (st : ObjState α) (s : LoadState α) : Prop where
  nodes : s.nodes = st.vertices.map fun n => pose.apply ⟨n.1, n.2.1, n.2.2⟩
  count : s.elements = st.faces.length
  tris : ∃ new, s.triangles = old ++ new ∧
    List.Forall₂ (FaceIs friction pose st.vertices) st.faces new

theorem ObjMatches.init (friction : α) (pose : Affine α) (old : List (TriangleGround α)) :
    ObjMatches friction pose old ObjState.init ⟨[], old, 0, false, false⟩ :=
  ⟨rfl, rfl, [], by simp, .nil⟩

theorem objLine_of_step {np : NumParse α} {friction : α} {pose : Affine α}
    {old : List (TriangleGround α)} {st st' : ObjState α} {s : LoadState α} {l : List Char}
    (hf : (zero <=. friction) = true) (hm : ObjMatches friction pose old st s)
    (h : ObjStep np.stod np.stoi st l st') :
    ∃ s', objLine np friction pose s l = .ok s' ∧ ObjMatches friction pose old st' s' := by
  cases h with
  | other h =>
    cases h with
    | blank hb => exact ⟨s, objLine_blank hb, hm⟩
    | other hl hv hf => exact ⟨s, objLine_other hl hv hf, hm⟩
  | @vertex vs fs _ x y z h =>
    cases h with
    | vertex hl ha hb hc =>
      refine ⟨{ s with nodes := s.nodes ++ [pose.apply ⟨x, y, z⟩] }, ?_, ?_, hm.count, ?_⟩
      · rw [objLine_v hl]
        simp [parseNode_of hl ha hb hc]
      · simp [hm.nodes]
      · obtain ⟨new, k1, k2⟩ := hm.tris
        exact ⟨new, k1, k2.imp fun _ _ h => h.mono _⟩
  | @face vs fs _ i j k h hi hj hk =>
    cases h with
    | face hl ha hb hc =>
      have get : ∀ {i : Nat} (hi : i < vs.length), s.nodes[i]? =
          some (pose.apply ⟨vs[i].1, vs[i].2.1, vs[i].2.2⟩) := by
        intro i hi; rw [hm.nodes]; simp [hi]
      have hi' : i - 1 < vs.length := by omega
      have hj' : j - 1 < vs.length := by omega
      have hk' : k - 1 < vs.length := by omega
      obtain ⟨t, ht, -, hfr, htri⟩ := parseObjFace_of (id := s.elements) hl ha hb hc hi.1 hj.1 hk.1
        hf (get hi') (get hj') (get hk')
      obtain ⟨new, k1, k2⟩ := hm.tris
      refine ⟨{ s with triangles := s.triangles ++ [t], elements := s.elements + 1 }, ?_, hm.nodes,
        by simp [hm.count], new ++ [t], by simp [k1], ?_⟩
      · rw [objLine_f hl]
        simp [ht]
      · refine List.rel_append k2 (.cons ?_ .nil)
        exact ⟨_, _, _, List.getElem?_eq_getElem hi', List.getElem?_eq_getElem hj',
          List.getElem?_eq_getElem hk', htri, hfr⟩

omit [Scalar α] in
theorem obj_cases (l : List Char) (hc : Clean l) (stod : List Char → Option α)
    (stoi : List Char → Option Int) :
    ObjMeans stod stoi l .other ∨ (∃ ws, WordLine l ("v".toList :: ws)) ∨
      ∃ ws, WordLine l ("f".toList :: ws) := by
  obtain ⟨ws, hws⟩ := Text.words_exists l
  cases ws with
  | nil => exact Or.inl (.blank fun c hc => Or.inl (wordLine_nil hws c hc))
  | cons w ws =>
    by_cases h1 : w = "v".toList
    · subst h1; exact Or.inr (Or.inl ⟨ws, hc, hws⟩)
    by_cases h2 : w = "f".toList
    · subst h2; exact Or.inr (Or.inr ⟨ws, hc, hws⟩)
    · exact Or.inl (.other ⟨hc, hws⟩ h1 h2)

theorem step_of_objLine {np : NumParse α} {friction : α} {pose : Affine α}
    {old : List (TriangleGround α)} {st : ObjState α} {s s' : LoadState α} {l : List Char}
    (hf : (zero <=. friction) = true) (hm : ObjMatches friction pose old st s)
    (hc : Clean l) (h : objLine np friction pose s l = .ok s') :
    ∃ st', ObjStep np.stod np.stoi st l st' ∧ ObjMatches friction pose old st' s' := by
  suffices hs : ∃ st', ObjStep np.stod np.stoi st l st' by
    obtain ⟨st', hs⟩ := hs
    obtain ⟨s1, e1, m1⟩ := objLine_of_step hf hm hs
    rw [h] at e1
    rw [Res.ok.inj e1]
    exact ⟨st', hs, m1⟩
  obtain ⟨vs, fs⟩ := st
  rcases obj_cases l hc np.stod np.stoi with h1 | ⟨ws, hl⟩ | ⟨ws, hl⟩
  · exact ⟨_, .other h1⟩
  · rw [objLine_v hl, Res.bind_eq_ok] at h
    obtain ⟨p, hp, -⟩ := h
    obtain ⟨a, b, c, x, y, z, hs, ha, hb, hc⟩ := parseNode_ok hp
    rw [Text.split_of_words (Text.words_first_tail hl.1 hl.2).2] at hs
    subst hs
    exact ⟨_, .vertex (.vertex hl ha hb hc)⟩
  · rw [objLine_f hl, Res.bind_eq_ok] at h
    obtain ⟨t, ht, -⟩ := h
    obtain ⟨a, b, c, i, j, k, p, q, r, hs, ha, hb, hc', i0, j0, k0, hp, hq, hr, -⟩ :=
      parseObjFace_ok ht
    rw [Text.split_of_words (Text.words_first_tail hl.1 hl.2).2] at hs
    subst hs
    obtain ⟨i, rfl⟩ := Int.eq_ofNat_of_zero_le i0
    obtain ⟨j, rfl⟩ := Int.eq_ofNat_of_zero_le j0
    obtain ⟨k, rfl⟩ := Int.eq_ofNat_of_zero_le k0
    have len : ∀ {i : Nat} {p}, s.nodes[i]? = some p → 1 ≤ i + 1 ∧ i + 1 ≤ vs.length := by
      intro i p hp
      have := (List.getElem?_eq_some_iff.mp hp).1
      rw [hm.nodes] at this
      simp at this
      omega
    exact ⟨_, .face (.face (i := i + 1) (j := j + 1) (k := k + 1) hl ha hb hc') (len hp) (len hq)
      (len hr)⟩

/-- A face line whose indices are integers, one of which is the smallest `int`, or which is positive
but beyond the vertices read so far. -/
def ObjDangling (stod : List Char → Option α) (stoi : List Char → Option Int) (st : ObjState α)
    (l : List Char) : Prop :=
  (∃ (i j k : Nat), ObjMeans stod stoi l (.face i j k) ∧
    ¬ (i ≤ st.vertices.length ∧ j ≤ st.vertices.length ∧ k ≤ st.vertices.length)) ∨
  ∃ ws, WordLine l ("f".toList :: ws) ∧ ∃ w ∈ ws, stoi w = some (-2147483648)

theorem dangling_of_objLine {np : NumParse α} {friction : α} {pose : Affine α}
    {old : List (TriangleGround α)} {st : ObjState α} {s : LoadState α} {l : List Char}
    {why : String} (hm : ObjMatches friction pose old st s)
    (hc : Clean l) (h : objLine np friction pose s l = .ub why) :
    ObjDangling np.stod np.stoi st l := by
  rcases obj_cases l hc np.stod np.stoi with h1 | ⟨ws, hl⟩ | ⟨ws, hl⟩
  · cases h1 with
    | blank hb => rw [objLine_blank hb] at h; cases h
    | other hl hv hf => rw [objLine_other hl hv hf] at h; cases h
  · rw [objLine_v hl] at h
    unfold parseNode at h
    split at h
    · simp only [stod] at h
      split at h
      · simp at h
        split at h
        · simp at h
          split at h <;> simp at h
        · simp at h
      · simp at h
    · simp at h
  · rw [objLine_f hl] at h
    unfold parseObjFace at h
    rw [Text.split_of_words (Text.words_first_tail hl.1 hl.2).2] at h
    split at h
    next a b c =>
      by_cases hbad : ∃ w ∈ [a, b, c], np.stoi w = some (-2147483648)
      · exact Or.inr ⟨_, hl, hbad⟩
      have good : ∀ w ∈ [a, b, c], ∀ i, np.stoi w = some i → i ≠ -2147483648 := by
        intro w hw i hi hh; subst hh; exact hbad ⟨w, hw, hi⟩
      left
      simp only [stoiMinus1, stoi] at h
      cases ha : np.stoi a with
      | none => simp [ha] at h
      | some i =>
      cases hb : np.stoi b with
      | none => simp [ha, hb, good a (by simp) i ha] at h
      | some j =>
      cases hc' : np.stoi c with
      | none => simp [ha, hb, hc', good a (by simp) i ha, good b (by simp) j hb] at h
      | some k =>
      simp only [ha, hb, hc', Res.bind_ok, good a (by simp) i ha, good b (by simp) j hb,
        good c (by simp) k hc', if_false, Res.pure_eq] at h
      by_cases i0 : 0 ≤ i - 1
      swap
      · simp only [decide_eq_false i0, Res.assert_false, Res.bind_throw] at h; cases h
      by_cases j0 : 0 ≤ j - 1
      swap
      · simp only [decide_eq_true i0, decide_eq_false j0, Res.assert_true, Res.assert_false,
          Res.bind_ok, Res.bind_throw] at h; cases h
      by_cases k0 : 0 ≤ k - 1
      swap
      · simp only [decide_eq_true i0, decide_eq_true j0, decide_eq_false k0, Res.assert_true,
          Res.assert_false, Res.bind_ok, Res.bind_throw] at h; cases h
      obtain ⟨i, rfl⟩ := Int.eq_ofNat_of_zero_le (show 0 ≤ i by omega)
      obtain ⟨j, rfl⟩ := Int.eq_ofNat_of_zero_le (show 0 ≤ j by omega)
      obtain ⟨k, rfl⟩ := Int.eq_ofNat_of_zero_le (show 0 ≤ k by omega)
      refine ⟨i, j, k, .face hl ha hb hc', ?_⟩
      rintro ⟨hi, hj, hk⟩
      have get : ∀ {i : Nat} (_ : 0 ≤ (i : Int) - 1) (_ : i ≤ st.vertices.length),
          ∃ p, nodeAt s.nodes ((i : Int) - 1) = .ok p := by
        intro i h0 hi
        unfold nodeAt; rw [hm.nodes]
        have : ((i : Int) - 1).toNat < st.vertices.length := by omega
        rw [List.getElem?_map, List.getElem?_eq_getElem this]
        exact ⟨_, rfl⟩
      obtain ⟨p, hp⟩ := get i0 hi
      obtain ⟨q, hq⟩ := get j0 hj
      obtain ⟨r, hr⟩ := get k0 hk
      simp only [i0, j0, k0, decide_true, Res.assert_true, Res.bind_ok, hp, hq, hr,
        TriangleGround.make] at h
      cases hf : (zero <=. friction) <;> simp [hf] at h
    next => simp at h

theorem loop_of_objReads {np : NumParse α} {friction : α} {pose : Affine α}
    {old : List (TriangleGround α)} {st st' : ObjState α} {s : LoadState α}
    {ls : List (List Char)} (hf : (zero <=. friction) = true)
    (hm : ObjMatches friction pose old st s) (h : ObjReads np.stod np.stoi st ls st') :
    ∃ s', lineLoop (objLine np friction pose) ls s = .ok s' () ∧
      ObjMatches friction pose old st' s' := by
  induction h generalizing s with
  | nil => exact ⟨s, rfl, hm⟩
  | cons hs _ ih =>
    obtain ⟨s1, e1, m1⟩ := objLine_of_step hf hm hs
    obtain ⟨s2, e2, m2⟩ := ih m1
    exact ⟨s2, by simp only [lineLoop, e1]; exact e2, m2⟩

theorem objReads_of_loop {np : NumParse α} {friction : α} {pose : Affine α}
    {old : List (TriangleGround α)} {st : ObjState α} {s s' : LoadState α} {ls : List (List Char)}
    {u : Unit} (hf : (zero <=. friction) = true) (hm : ObjMatches friction pose old st s)
    (hc : ∀ l ∈ ls, Clean l) (h : lineLoop (objLine np friction pose) ls s = .ok s' u) :
    ∃ st', ObjReads np.stod np.stoi st ls st' ∧ ObjMatches friction pose old st' s' := by
  induction ls generalizing s st with
  | nil => cases h; exact ⟨st, .nil, hm⟩
  | cons l ls ih =>
    simp only [lineLoop] at h
    split at h
    next s1 e1 =>
      obtain ⟨st1, hs, m1⟩ := step_of_objLine hf hm (hc l (by simp)) e1
      obtain ⟨st2, hr, m2⟩ := ih m1 (fun l hl => hc l (by simp [hl])) h
      exact ⟨st2, .cons hs hr, m2⟩
    · cases h
    · cases h

theorem dangling_of_objLoop {np : NumParse α} {friction : α} {pose : Affine α}
    {old : List (TriangleGround α)} {st : ObjState α} {s : LoadState α} {ls : List (List Char)}
    {why : String} (hf : (zero <=. friction) = true) (hm : ObjMatches friction pose old st s)
    (hc : ∀ l ∈ ls, Clean l) (h : lineLoop (objLine np friction pose) ls s = .ub why) :
    ∃ pre l post st', ls = pre ++ l :: post ∧ ObjReads np.stod np.stoi st pre st' ∧
      ObjDangling np.stod np.stoi st' l := by
  induction ls generalizing s st with
  | nil => cases h
  | cons l ls ih =>
    simp only [lineLoop] at h
    split at h
    next s1 e1 =>
      obtain ⟨st1, hs, m1⟩ := step_of_objLine hf hm (hc l (by simp)) e1
      obtain ⟨pre, l', post, st', e, hr, hd⟩ := ih m1 (fun l hl => hc l (by simp [hl])) h
      exact ⟨l :: pre, l', post, st', by rw [e]; rfl, .cons hs hr, hd⟩
    · cases h
    next w e1 =>
      exact ⟨[], l, ls, st, rfl, .nil, dangling_of_objLine hm (hc l (by simp)) e1⟩

end Mesh
end Enve
