import Verif.Spec.Collection
import Mathlib.Data.List.Forall2
import Mathlib.Data.Real.Basic
import Verif.Lemmas.RealVec

/-! # C77: what the members of a collection answer about its entities -/

namespace Enve
open Scalar Spec

section
variable {α : Type} {h : Heap α} {c : Coll α} {es : List (Entity α)}

theorem Coll.anyLoop_eq {ps : List (Option Nat)} (hp : Points h ps es) (p : Entity α → Bool) :
    Coll.anyLoop h p ps = .ok (es.any p) := by
  induction hp with
  | nil => rfl
  | cons hd _ ih =>
    obtain ⟨a, rfl, rfl⟩ := hd
    simp only [Coll.anyLoop, Coll.deref, Res.bind_ok, List.any_cons, ih, Res.pure_eq]
    cases p (h a) <;> rfl

theorem Coll.allLoop_eq {ps : List (Option Nat)} (hp : Points h ps es) (p : Entity α → Bool) :
    Coll.allLoop h p ps = .ok (es.all p) := by
  induction hp with
  | nil => rfl
  | cons hd _ ih =>
    obtain ⟨a, rfl, rfl⟩ := hd
    simp only [Coll.allLoop, Coll.deref, Res.bind_ok, List.all_cons, ih, Res.pure_eq]
    cases p (h a) <;> rfl

theorem Coll.countLoop_eq {ps : List (Option Nat)} (hp : Points h ps es) (p : Entity α → Bool) :
    Coll.countLoop h p ps = .ok (es.countP p) := by
  induction hp with
  | nil => rfl
  | cons hd _ ih =>
    obtain ⟨a, rfl, rfl⟩ := hd
    simp only [Coll.countLoop, Coll.deref, Res.bind_ok, List.countP_cons, ih, Res.pure_eq]
    congr 1
    cases p (h a) <;> simp
    omega

theorem Coll.testAt_eq {ps : List (Option Nat)} (hp : Points h ps es) (p : Entity α → Bool) (i : Nat)
    (hi : i < es.length) : Coll.testAt h p ps i = .ok (p es[i]) := by
  have hl := List.Forall₂.length_eq hp
  have hg := List.Forall₂.get hp (hl ▸ hi) hi
  obtain ⟨a, h1, h2⟩ := hg
  simp only [List.get_eq_getElem] at h1 h2
  have hq : ps[i]? = some (some a) := by rw [List.getElem?_eq_getElem (hl ▸ hi), h1]
  simp [Coll.testAt, Coll.at', hq, Coll.deref, h2, show ¬ ((i : Int) < 0) by omega]

theorem Coll.testAt_out {ps : List (Option Nat)} (hp : Points h ps es) (p : Entity α → Bool) (i : Int)
    (hi : i < 0 ∨ (es.length : Int) ≤ i) : ∃ w, Coll.testAt h p ps i = .ub w := by
  have hl := List.Forall₂.length_eq hp
  unfold Coll.testAt Coll.at'
  rcases hi with hi | hi
  · rw [if_pos hi]; exact ⟨_, rfl⟩
  · rw [if_neg (by omega), List.getElem?_eq_none (by omega)]; exact ⟨_, rfl⟩

/-- The predicate of each kind. -/
theorem Spec.kind_eq (e : Entity α) : e.isNone = decide (kind e = .none) ∧
    e.isPoint = decide (kind e = .point) ∧ e.isLine = decide (kind e = .line) ∧
    e.isRay = decide (kind e = .ray) ∧ e.isPlane = decide (kind e = .plane) ∧
    e.isSegment = decide (kind e = .segment) ∧ e.isTriangle = decide (kind e = .triangle) ∧
    e.isDisk = decide (kind e = .disk) ∧ e.isBall = decide (kind e = .ball) ∧
    e.isClampable = (kind e).bounded ∧ e.isNonClampable = (kind e).unbounded := by
  cases e <;> exact ⟨rfl, rfl, rfl, rfl, rfl, rfl, rfl, rfl, rfl, rfl, rfl⟩

/-- The `is⟨Kind⟩` member of an entity. -/
def Spec.kindTest (k : Kind) (e : Entity α) : Bool := decide (kind e = k)

theorem Spec.isNone_fun : (Entity.isNone : Entity α → Bool) = kindTest .none := funext fun e => (kind_eq e).1
theorem Spec.isPoint_fun : (Entity.isPoint : Entity α → Bool) = kindTest .point :=
  funext fun e => (kind_eq e).2.1
theorem Spec.isLine_fun : (Entity.isLine : Entity α → Bool) = kindTest .line :=
  funext fun e => (kind_eq e).2.2.1
theorem Spec.isRay_fun : (Entity.isRay : Entity α → Bool) = kindTest .ray :=
  funext fun e => (kind_eq e).2.2.2.1
theorem Spec.isPlane_fun : (Entity.isPlane : Entity α → Bool) = kindTest .plane :=
  funext fun e => (kind_eq e).2.2.2.2.1
theorem Spec.isSegment_fun : (Entity.isSegment : Entity α → Bool) = kindTest .segment :=
  funext fun e => (kind_eq e).2.2.2.2.2.1
theorem Spec.isTriangle_fun : (Entity.isTriangle : Entity α → Bool) = kindTest .triangle :=
  funext fun e => (kind_eq e).2.2.2.2.2.2.1
theorem Spec.isDisk_fun : (Entity.isDisk : Entity α → Bool) = kindTest .disk :=
  funext fun e => (kind_eq e).2.2.2.2.2.2.2.1
theorem Spec.isBall_fun : (Entity.isBall : Entity α → Bool) = kindTest .ball :=
  funext fun e => (kind_eq e).2.2.2.2.2.2.2.2.1

/-- **C77.** `contain⟨Kind⟩` says whether there is an entity of the kind. -/
theorem C77_contain (hc : Holds h c es) (k : Kind) :
    contain k h c = .ok (decide (∃ e ∈ es, kind e = k)) := by
  have key (k : Kind) : es.any (kindTest k) = decide (∃ e ∈ es, kind e = k) := by
    rw [Bool.eq_iff_iff]; simp [kindTest]
  cases k <;> simp only [contain, Coll.containNone, Coll.containPoint, Coll.containLine, Coll.containRay,
    Coll.containPlane, Coll.containSegment, Coll.containTriangle, Coll.containDisk, Coll.containBall,
    Coll.anyLoop_eq hc, isNone_fun, isPoint_fun, isLine_fun, isRay_fun, isPlane_fun, isSegment_fun,
    isTriangle_fun, isDisk_fun, isBall_fun, key]

/-- **C77.** `are⟨Kind⟩` says whether all entities are of the kind.  Missing: `areSegment`. -/
theorem C77_are_partial (hc : Holds h c es) (k : Kind) (hk : k ≠ .segment) :
    are k h c = .ok (decide (∀ e ∈ es, kind e = k)) := by
  have key (k : Kind) : es.all (kindTest k) = decide (∀ e ∈ es, kind e = k) := by
    rw [Bool.eq_iff_iff]; simp [kindTest]
  cases k <;> first
  | exact absurd rfl hk
  | simp only [are, Coll.areNone, Coll.arePoint, Coll.areLine, Coll.areRay,
      Coll.arePlane, Coll.areTriangle, Coll.areDisk, Coll.areBall,
      Coll.allLoop_eq hc, isNone_fun, isPoint_fun, isLine_fun, isRay_fun, isPlane_fun,
      isTriangle_fun, isDisk_fun, isBall_fun, key]

/-- **C77 fails for `areSegment`.** It says no for a collection of one segment and yes for one ball,
whatever they are. -/
theorem C77_areSegment_refuted (h : Heap α) (c : Coll α) (e : Entity α) (hc : Holds h c [e]) :
    (kind e = .segment → Coll.areSegment h c = .ok false) ∧
    (kind e = .ball → Coll.areSegment h c = .ok true) := by
  unfold Coll.areSegment
  rw [Coll.allLoop_eq hc]
  cases e <;> simp [kind, Entity.isBall]

/-- **C77.** `is⟨Kind⟩(i)` is about the `i`-th entity; an index that is out of range is undefined
behaviour. -/
theorem C77_isAt (hc : Holds h c es) (k : Kind) :
    (∀ (i : Nat) (hi : i < es.length), isAt k h c i = .ok (decide (kind es[i] = k))) ∧
    ∀ i : Int, i < 0 ∨ (es.length : Int) ≤ i → ∃ w, isAt k h c i = .ub w := by
  constructor
  · intro i hi
    cases k <;> simp only [isAt, Coll.isNone, Coll.isPoint, Coll.isLine, Coll.isRay,
      Coll.isPlane, Coll.isSegment, Coll.isTriangle, Coll.isDisk, Coll.isBall,
      Coll.testAt_eq hc _ i hi, isNone_fun, isPoint_fun, isLine_fun, isRay_fun, isPlane_fun, isSegment_fun,
      isTriangle_fun, isDisk_fun, isBall_fun, kindTest]
  · intro i hi
    cases k <;> exact Coll.testAt_out hc _ i hi

/-- **C77.** `count⟨Kind⟩` is the number of entities of the kind. -/
theorem C77_count (hc : Holds h c es) (k : Kind) :
    countOf k h c = .ok (es.filter (fun e => kind e = k)).length := by
  have key (k : Kind) : es.countP (kindTest k) = (es.filter (fun e => kind e = k)).length := by
    rw [List.countP_eq_length_filter]; rfl
  cases k <;> simp only [countOf, Coll.countNone, Coll.countPoint, Coll.countLine, Coll.countRay,
    Coll.countPlane, Coll.countSegment, Coll.countTriangle, Coll.countDisk, Coll.countBall,
    Coll.countLoop_eq hc, isNone_fun, isPoint_fun, isLine_fun, isRay_fun, isPlane_fun, isSegment_fun,
    isTriangle_fun, isDisk_fun, isBall_fun, key]

/-- **C77.** The members about entities with and without a bounding box. -/
theorem C77_clampable (hc : Holds h c es) :
    c.containClampable h = .ok (decide (∃ e ∈ es, (kind e).bounded)) ∧
    c.areClampable h = .ok (decide (∀ e ∈ es, (kind e).bounded)) ∧
    c.countClampable h = .ok (es.filter (fun e => (kind e).bounded)).length ∧
    c.containNonClampable h = .ok (decide (∃ e ∈ es, (kind e).unbounded)) ∧
    c.areNonClampable h = .ok (decide (∀ e ∈ es, (kind e).unbounded)) ∧
    (∀ (i : Nat) (hi : i < es.length), c.isClampable h i = .ok (kind es[i]).bounded ∧
      c.isNonClampable h i = .ok (kind es[i]).unbounded) := by
  have h1 : (Entity.isClampable : Entity α → Bool) = fun e => (kind e).bounded :=
    funext fun e => (kind_eq e).2.2.2.2.2.2.2.2.2.1
  have h2 : (Entity.isNonClampable : Entity α → Bool) = fun e => (kind e).unbounded :=
    funext fun e => (kind_eq e).2.2.2.2.2.2.2.2.2.2
  refine ⟨?_, ?_, ?_, ?_, ?_, fun i hi => ⟨?_, ?_⟩⟩
  · rw [Coll.containClampable, Coll.anyLoop_eq hc, h1]; congr 1; rw [Bool.eq_iff_iff]; simp
  · rw [Coll.areClampable, Coll.allLoop_eq hc, h1]; congr 1; rw [Bool.eq_iff_iff]; simp
  · rw [Coll.countClampable, Coll.countLoop_eq hc, h1, List.countP_eq_length_filter]
  · rw [Coll.containNonClampable, Coll.anyLoop_eq hc, h2]; congr 1; rw [Bool.eq_iff_iff]; simp
  · rw [Coll.areNonClampable, Coll.allLoop_eq hc, h2]; congr 1; rw [Bool.eq_iff_iff]; simp
  · rw [Coll.isClampable, Coll.testAt_eq hc _ i hi, h1]
  · rw [Coll.isNonClampable, Coll.testAt_eq hc _ i hi, h2]

/-- **C77 fails for `countNonClampable`.** It counts the other entities. -/
theorem C77_countNonClampable_refuted (hc : Holds h c es) :
    c.countNonClampable h = .ok (es.filter (fun e => !(kind e).unbounded)).length := by
  have h2 : (Entity.isNonClampable : Entity α → Bool) = fun e => (kind e).unbounded :=
    funext fun e => (kind_eq e).2.2.2.2.2.2.2.2.2.2
  rw [Coll.countNonClampable, Coll.countLoop_eq hc, List.countP_eq_length_filter, h2]

/-- **C77.** The nine kinds partition a collection: the counts add up to its size. -/
theorem C77_partition (hc : Holds h c es) (n : Kind → Int) (hn : ∀ k, countOf k h c = .ok (n k)) :
    n .none + n .point + n .line + n .ray + n .plane + n .segment + n .triangle + n .disk + n .ball =
      c.size := by
  have hk (k : Kind) : n k = (es.filter (fun e => kind e = k)).length := by
    have := (hn k).symm.trans (C77_count hc k)
    injection this
  have hl : c.size = es.length := congrArg Int.ofNat (List.Forall₂.length_eq hc)
  simp only [hk, hl]
  clear hk hn n hc hl
  induction es with
  | nil => rfl
  | cons e es ih =>
    rcases hk : kind e <;> simp [hk] <;> omega

end

section
variable {α : Type} [Scalar α] {h : Heap α} {c : Coll α} {es : List (Entity α)}

/-- **C77.** Degenerated entities.  Missing: `containDegenerated`. -/
theorem C77_degenerated_partial (hc : Holds h c es) (tol : α) :
    c.areDegenerated h tol = .ok (decide (∀ e ∈ es, e.isDegenerated tol)) ∧
    c.countDegenerated h tol = .ok (es.filter (fun e => e.isDegenerated tol)).length ∧
    ∀ (i : Nat) (hi : i < es.length), c.isDegenerated h i tol = .ok (es[i].isDegenerated tol) := by
  refine ⟨?_, ?_, fun i hi => ?_⟩
  · rw [Coll.areDegenerated, Coll.allLoop_eq hc]; congr 1; rw [Bool.eq_iff_iff]; simp
  · rw [Coll.countDegenerated, Coll.countLoop_eq hc, List.countP_eq_length_filter]
  · rw [Coll.isDegenerated, Coll.testAt_eq hc _ i hi]

/-- **C77 fails for `containDegenerated`.** It says yes for an empty collection, and no for a collection
of a sound and a degenerated entity. -/
theorem C77_containDegenerated_refuted (h : Heap α) (c : Coll α) (tol : α) :
    (Holds h c [] → c.containDegenerated h tol = .ok true) ∧
    ∀ e f, Holds h c [e, f] → e.isDegenerated tol = false → f.isDegenerated tol = true →
      c.containDegenerated h tol = .ok false := by
  constructor
  · intro hc; rw [Coll.containDegenerated, Coll.allLoop_eq hc]; rfl
  · intro e f hc h1 _; rw [Coll.containDegenerated, Coll.allLoop_eq hc]; simp [h1]

/-- **C77.** `count` is the table of the single counts. -/
theorem C77_table (hc : Holds h c es) (tol : α) :
    let n (k : Kind) : Int := (es.filter (fun e => kind e = k)).length
    c.count h tol = .ok [("none", n .none), ("point", n .point), ("line", n .line), ("ray", n .ray),
      ("plane", n .plane), ("segment", n .segment), ("triangle", n .triangle), ("disk", n .disk),
      ("ball", n .ball), ("degenerated", (es.filter (fun e => e.isDegenerated tol)).length),
      ("clampable", (es.filter (fun e => (kind e).bounded)).length),
      ("non-clampable", (es.filter (fun e => !(kind e).unbounded)).length)] := by
  intro n
  have hk := C77_count hc
  have h0 := hk .none; have h1 := hk .point; have h2 := hk .line; have h3 := hk .ray
  have h4 := hk .plane; have h5 := hk .segment; have h6 := hk .triangle; have h7 := hk .disk
  have h8 := hk .ball
  simp only [countOf] at h0 h1 h2 h3 h4 h5 h6 h7 h8
  simp only [Coll.count, h0, h1, h2, h3, h4, h5, h6, h7, h8, (C77_degenerated_partial hc tol).2.1,
    (C77_clampable hc).2.2.1, C77_countNonClampable_refuted hc, Res.bind_ok, Res.pure_eq, n]

end

/-! ## Changing a collection -/

section
variable {α : Type} {h : Heap α} {c : Coll α} {es : List (Entity α)}

theorem Spec.Points.append {ps qs : List (Option Nat)} {es fs : List (Entity α)} (h1 : Points h ps es)
    (h2 : Points h qs fs) : Points h (ps ++ qs) (es ++ fs) := List.rel_append h1 h2

/-- **C77.** The container: a new collection is empty, `push_back` appends, `clear` empties, `resize` to a
smaller size keeps the first entities, and `size` is the number of entities. -/
theorem C77_container (hc : Holds h c es) :
    c.size = es.length ∧ Holds h (Coll.empty : Coll α) [] ∧ Holds h c.clear [] ∧
    (∀ a, Holds h (c.pushBack (some a)) (es ++ [h a])) ∧
    ∀ n : Nat, n ≤ es.length → ∃ c', c.resize n = .ok c' ∧ Holds h c' (es.take n) := by
  have hl := List.Forall₂.length_eq hc
  refine ⟨congrArg Int.ofNat hl, .nil, .nil, fun a => Points.append hc (.cons ⟨a, rfl, rfl⟩ .nil), ?_⟩
  intro n hn
  refine ⟨⟨c.entities.take n, c.tree⟩, ?_, List.forall₂_take n hc⟩
  have : n - c.entities.length = 0 := by omega
  simp [Coll.resize, this]

theorem Coll.removeIf_spec (p : Entity α → Bool) (rest : List (Option Nat)) :
    ∀ (kept hole : List (Option Nat)) (fs : List (Entity α)), Points h rest fs →
    ∃ out, Coll.removeIf h p kept hole rest = .ok out ∧
      out.length = kept.length + hole.length + rest.length ∧
      ∃ moved junk, out = kept ++ moved ++ junk ∧ Points h moved (fs.filter (fun e => !p e)) := by
  induction rest with
  | nil =>
    intro kept hole fs hf
    cases hf
    exact ⟨kept ++ hole, rfl, by simp, [], hole, by simp, .nil⟩
  | cons x rest ih =>
    intro kept hole fs hf
    rcases hf with _ | ⟨⟨a, rfl, rfl⟩, hf⟩
    rename_i fs
    simp only [Coll.removeIf, Coll.deref, Res.bind_ok]
    rcases hp : p (h a) with _ | _
    · have step (hole' : List (Option Nat)) :
          ∃ out, Coll.removeIf h p (kept ++ [some a]) hole' rest = .ok out ∧
            out.length = kept.length + hole'.length + (some a :: rest).length ∧
            ∃ moved junk, out = kept ++ moved ++ junk ∧
              Points h moved ((h a :: fs).filter (fun e => !p e)) := by
        obtain ⟨out, h1, h2, moved, junk, h3, h4⟩ := ih (kept ++ [some a]) hole' fs hf
        refine ⟨out, h1, by simp at h2 ⊢; omega, some a :: moved, junk, by simp [h3], ?_⟩
        rw [List.filter_cons_of_pos (by simp [hp])]
        exact .cons ⟨a, rfl, rfl⟩ h4
      simp only [Bool.false_eq_true, if_false]
      cases hole with
      | nil => exact step []
      | cons y hole =>
        have := step (hole ++ [none])
        simpa using this
    · simp only [if_true]
      obtain ⟨out, h1, h2, moved, junk, h3, h4⟩ := ih kept (hole ++ [some a]) fs hf
      refine ⟨out, h1, by simp at h2 ⊢; omega, moved, junk, h3, ?_⟩
      rw [List.filter_cons_of_neg (by simp [hp])]
      exact h4

theorem Coll.removeWith_spec (hc : Holds h c es) (p : Entity α → Bool) :
    ∃ c', Coll.removeWith h p c = .ok c' ∧ c'.size = c.size ∧
      Holds h ⟨c'.entities.take (es.length - es.countP p), c'.tree⟩ (es.filter (fun e => !p e)) := by
  obtain ⟨out, h1, h2, moved, junk, h3, h4⟩ := Coll.removeIf_spec p c.entities [] [] es hc
  refine ⟨⟨out, c.tree⟩, by simp [Coll.removeWith, h1], by simp [Coll.size, h2], ?_⟩
  have hl := List.Forall₂.length_eq h4
  have hcount : (es.filter (fun e => !p e)).length = es.length - es.countP p := by
    have := List.length_eq_countP_add_countP p (l := es)
    rw [← List.countP_eq_length_filter]
    have e : es.countP (fun e => !p e) = es.countP (fun a => ¬ p a = true) := by
      congr 1; funext a; cases p a <;> rfl
    rw [e]; omega
  simp only [List.nil_append] at h3
  show Points h (out.take _) _
  rw [← hcount, ← hl, h3, List.take_left]
  exact h4

theorem Spec.removeKind_eq (k : Kind) (h : Heap α) (c : Coll α) :
    removeKind k h c = Coll.removeWith h (kindTest k) c := by
  cases k
  · exact congrArg (Coll.removeWith h · c) isNone_fun
  · exact congrArg (Coll.removeWith h · c) isPoint_fun
  · exact congrArg (Coll.removeWith h · c) isLine_fun
  · exact congrArg (Coll.removeWith h · c) isRay_fun
  · exact congrArg (Coll.removeWith h · c) isPlane_fun
  · exact congrArg (Coll.removeWith h · c) isSegment_fun
  · exact congrArg (Coll.removeWith h · c) isTriangle_fun
  · exact congrArg (Coll.removeWith h · c) isDisk_fun
  · exact congrArg (Coll.removeWith h · c) isBall_fun

/-- **C77.** `remove⟨Kind⟩` moves the entities of the other kinds to the front, in order; cutting the
collection to their number gives the collection without the kind. -/
theorem C77_remove_partial (hc : Holds h c es) (k : Kind) :
    ∃ c' c'', removeKind k h c = .ok c' ∧
      c'.resize (c.size - (es.filter (fun e => kind e = k)).length) = .ok c'' ∧
      Holds h c'' (es.filter (fun e => kind e ≠ k)) := by
  have hl := List.Forall₂.length_eq hc
  have key : ∀ k, ∃ c' c'', Coll.removeWith h (kindTest k) c = .ok c' ∧
      c'.resize (c.size - (es.filter (fun e => kind e = k)).length) = .ok c'' ∧
      Holds h c'' (es.filter (fun e => kind e ≠ k)) := by
    intro k
    obtain ⟨c', h1, h2, h3⟩ := Coll.removeWith_spec hc (kindTest k)
    have hn : es.countP (kindTest k) = (es.filter (fun e => kind e = k)).length := by
      rw [List.countP_eq_length_filter]; rfl
    have hf : es.filter (fun e => !kindTest k e) = es.filter (fun e => kind e ≠ k) := by
      congr 1; funext e; simp [kindTest]
    have hle : (es.filter (fun e => kind e = k)).length ≤ es.length := List.length_filter_le _ _
    rw [hn, hf] at h3
    refine ⟨c', _, h1, ?_, h3⟩
    have hs : c.size = (es.length : Int) := congrArg Int.ofNat hl
    have hs' : (c'.entities.length : Int) = es.length := by rw [← hs, ← h2]; rfl
    have e : c.size - ((es.filter (fun e => kind e = k)).length : Int) =
        ((es.length - (es.filter (fun e => kind e = k)).length : Nat) : Int) := by rw [hs]; omega
    rw [e]
    have e2 : es.length - (es.filter (fun e => kind e = k)).length - c'.entities.length = 0 := by omega
    simp [Coll.resize, e2]
  rw [removeKind_eq]
  exact key k

theorem Coll.removeWith_cut (hc : Holds h c es) (p : Entity α → Bool) :
    ∃ c' c'', Coll.removeWith h p c = .ok c' ∧ c'.resize (c.size - (es.filter p).length) = .ok c'' ∧
      Holds h c'' (es.filter (fun e => !p e)) := by
  have hl := List.Forall₂.length_eq hc
  obtain ⟨c', h1, h2, h3⟩ := Coll.removeWith_spec hc p
  have hle : (es.filter p).length ≤ es.length := List.length_filter_le _ _
  rw [List.countP_eq_length_filter] at h3
  refine ⟨c', _, h1, ?_, h3⟩
  have hs : c.size = (es.length : Int) := congrArg Int.ofNat hl
  have hs' : (c'.entities.length : Int) = es.length := by rw [← hs, ← h2]; rfl
  have e : c.size - ((es.filter p).length : Int) = ((es.length - (es.filter p).length : Nat) : Int) := by
    rw [hs]; omega
  rw [e]
  have e2 : es.length - (es.filter p).length - c'.entities.length = 0 := by omega
  simp [Coll.resize, e2]

/-- **C77.** `removeClampable` and `removeNonClampable` move the other entities to the front in the same way. -/
theorem C77_remove_clampable_partial (hc : Holds h c es) :
    (∃ c' c'', c.removeClampable h = .ok c' ∧ c'.resize (c.size - (es.filter fun e => (kind e).bounded).length) = .ok c'' ∧
      Holds h c'' (es.filter fun e => !(kind e).bounded)) ∧
    (∃ c' c'', c.removeNonClampable h = .ok c' ∧
      c'.resize (c.size - (es.filter fun e => (kind e).unbounded).length) = .ok c'' ∧
      Holds h c'' (es.filter fun e => !(kind e).unbounded)) := by
  have h1 : (Entity.isClampable : Entity α → Bool) = fun e => (kind e).bounded :=
    funext fun e => (kind_eq e).2.2.2.2.2.2.2.2.2.1
  have h2 : (Entity.isNonClampable : Entity α → Bool) = fun e => (kind e).unbounded :=
    funext fun e => (kind_eq e).2.2.2.2.2.2.2.2.2.2
  rw [Coll.removeClampable, Coll.removeNonClampable, h1, h2]
  exact ⟨Coll.removeWith_cut hc _, Coll.removeWith_cut hc _⟩

/-- **C77 fails for them too**: nothing is removed from a collection that ends with what is to be removed. -/
theorem C77_remove_clampable_refuted (h : Heap α) (c : Coll α) (e f : Entity α) (hc : Holds h c [e, f]) :
    ((kind f).bounded = true → c.removeClampable h = .ok c ∧ c.containClampable h = .ok true) ∧
    ((kind f).unbounded = true → c.removeNonClampable h = .ok c ∧ c.containNonClampable h = .ok true) := by
  have h1 : (Entity.isClampable : Entity α → Bool) = fun e => (kind e).bounded :=
    funext fun e => (kind_eq e).2.2.2.2.2.2.2.2.2.1
  have h2 : (Entity.isNonClampable : Entity α → Bool) = fun e => (kind e).unbounded :=
    funext fun e => (kind_eq e).2.2.2.2.2.2.2.2.2.2
  have k1 := (C77_clampable hc).1
  have k2 := (C77_clampable hc).2.2.2.1
  rcases c with ⟨ps, t⟩
  rcases hc with _ | ⟨⟨a, rfl, rfl⟩, hc⟩
  rcases hc with _ | ⟨⟨b, rfl, rfl⟩, hc⟩
  cases hc
  constructor
  · intro hf
    rw [k1, Coll.removeClampable, h1]
    simp [Coll.removeWith, Coll.removeIf, Coll.deref, hf]
  · intro hf
    rw [k2, Coll.removeNonClampable, h2]
    simp [Coll.removeWith, Coll.removeIf, Coll.deref, hf]

theorem Spec.contain_eq (k : Kind) (h : Heap α) (c : Coll α) :
    contain k h c = Coll.anyLoop h (kindTest k) c.entities := by
  cases k
  · exact congrArg (Coll.anyLoop h · c.entities) isNone_fun
  · exact congrArg (Coll.anyLoop h · c.entities) isPoint_fun
  · exact congrArg (Coll.anyLoop h · c.entities) isLine_fun
  · exact congrArg (Coll.anyLoop h · c.entities) isRay_fun
  · exact congrArg (Coll.anyLoop h · c.entities) isPlane_fun
  · exact congrArg (Coll.anyLoop h · c.entities) isSegment_fun
  · exact congrArg (Coll.anyLoop h · c.entities) isTriangle_fun
  · exact congrArg (Coll.anyLoop h · c.entities) isDisk_fun
  · exact congrArg (Coll.anyLoop h · c.entities) isBall_fun

/-- **C77 fails for `remove⟨Kind⟩`.** It removes nothing from a collection that ends with the entity to be
removed; and when the entity to be removed is followed by another one, a null pointer stays in the
collection and the next query is undefined behaviour. -/
theorem C77_remove_refuted (k : Kind) (h : Heap α) (c : Coll α) (e f : Entity α)
    (hc : Holds h c [e, f]) :
    (kind f = k → removeKind k h c = .ok c ∧ contain k h c = .ok true) ∧
    (kind e = k → kind f ≠ k → ∃ c' w, removeKind k h c = .ok c' ∧ contain k h c' = .ub w) := by
  rcases c with ⟨ps, t⟩
  rcases hc with _ | ⟨⟨a, rfl, rfl⟩, hc⟩
  rcases hc with _ | ⟨⟨b, rfl, rfl⟩, hc⟩
  cases hc
  constructor
  · intro h2
    rw [removeKind_eq, contain_eq]
    simp [Coll.removeWith, Coll.removeIf, Coll.deref, kindTest, h2, Coll.anyLoop]
  · intro h1 h2
    rw [removeKind_eq]
    refine ⟨⟨[some b, none], t⟩, "null entity pointer dereferenced", ?_, ?_⟩
    · simp [Coll.removeWith, Coll.removeIf, Coll.deref, kindTest, h1, h2]
    · rw [contain_eq]
      simp [Coll.deref, kindTest, h2, Coll.anyLoop]

/-! ## Moving a collection -/

theorem Coll.mapLoop_spec (g : Entity α → Entity α) (ps : List (Option Nat)) :
    ∀ (h : Heap α) (es : List (Entity α)), Points h ps es → ps.Nodup →
    ∃ h', Coll.mapLoop g h ps = .ok h' ∧ Points h' ps (es.map g) ∧
      ∀ a, some a ∉ ps → h' a = h a := by
  induction ps with
  | nil => intro h es hp _; cases hp; exact ⟨h, rfl, .nil, fun _ _ => rfl⟩
  | cons p ps ih =>
    intro h es hp hnd
    rcases hp with _ | ⟨⟨a, rfl, rfl⟩, hp⟩
    rename_i es
    obtain ⟨hna, hn⟩ := List.nodup_cons.1 hnd
    have hp' : Points (Coll.store h a (g (h a))) ps es := by
      clear ih hn hnd
      induction hp with
      | nil => exact .nil
      | cons hd _ ih =>
        obtain ⟨b, rfl, rfl⟩ := hd
        simp only [List.mem_cons, not_or] at hna
        have hb : b ≠ a := fun e => hna.1 (by rw [e])
        exact .cons ⟨b, rfl, by simp [Coll.store, hb]⟩ (ih hna.2)
    obtain ⟨h', h1, h2, h3⟩ := ih _ es hp' hn
    refine ⟨h', h1, .cons ⟨a, rfl, ?_⟩ h2, fun b hb => ?_⟩
    · rw [h3 a hna]; simp [Coll.store]
    · simp only [List.mem_cons, not_or] at hb
      rw [h3 b hb.2]
      have : b ≠ a := fun e => hb.1 (by rw [e])
      simp [Coll.store, this]

end

section
variable {α : Type} [Scalar α] {h : Heap α} {c : Coll α} {es : List (Entity α)}

/-- **C77.** `removeDegenerated` moves the sound entities to the front; it is told the tolerance. -/
theorem C77_remove_degenerated_partial (hc : Holds h c es) (tol : α) :
    ∃ c' c'', c.removeDegenerated h tol = .ok c' ∧
      c'.resize (c.size - (es.filter fun e => e.isDegenerated tol).length) = .ok c'' ∧
      Holds h c'' (es.filter fun e => !e.isDegenerated tol) := by
  have e : (Entity.isDegenerated tol : Entity α → Bool) = fun e => e.isDegenerated tol := rfl
  rw [Coll.removeDegenerated, e]
  exact Coll.removeWith_cut hc _

/-- **C77.** `translate`, `rotate` and `transform` move every entity of the collection and nothing else.
Missing: collections in which an object occurs twice. -/
theorem C77_move_partial (hc : Holds h c es) (hn : c.entities.Nodup) :
    (∀ v, ∃ h', c.translate h v = .ok h' ∧ Holds h' c (es.map (Entity.translate v)) ∧
      ∀ a, some a ∉ c.entities → h' a = h a) ∧
    (∀ t u, ∃ h', c.rotate h t u = .ok h' ∧ Holds h' c (es.map (Entity.rotate t u)) ∧
      ∀ a, some a ∉ c.entities → h' a = h a) ∧
    ∀ m, ∃ h', c.transform h m = .ok h' ∧ Holds h' c (es.map (Entity.transform m)) ∧
      ∀ a, some a ∉ c.entities → h' a = h a :=
  ⟨fun _ => Coll.mapLoop_spec _ _ h es hc hn, fun _ _ => Coll.mapLoop_spec _ _ h es hc hn,
   fun _ => Coll.mapLoop_spec _ _ h es hc hn⟩

end

/-- **C77 fails for an object that occurs twice.** Such collections come out of
`collection::intersection`; `translate` moves the object twice. -/
theorem C77_move_refuted : ∃ (h h' : Heap ℝ) (c : Coll ℝ) (v : V3 ℝ),
    Holds h c [.point ⟨0, 0, 0⟩, .point ⟨0, 0, 0⟩] ∧ v = ⟨1, 0, 0⟩ ∧ c.translate h v = .ok h' ∧
      Holds h' c [.point ⟨2, 0, 0⟩, .point ⟨2, 0, 0⟩] := by
  refine ⟨fun _ => .point ⟨0, 0, 0⟩, _, ⟨[some 0, some 0], .empty⟩, ⟨1, 0, 0⟩, ?_, rfl, rfl, ?_⟩
  · exact .cons ⟨0, rfl, rfl⟩ (.cons ⟨0, rfl, rfl⟩ .nil)
  · have : ∀ b, Coll.store (Coll.store (fun _ => Entity.point ⟨0, 0, 0⟩) 0
        (Entity.translate ⟨1, 0, 0⟩ (Entity.point ⟨0, 0, 0⟩))) 0
        (Entity.translate ⟨1, 0, 0⟩ (Coll.store (fun _ => Entity.point ⟨0, 0, 0⟩) 0
        (Entity.translate ⟨1, 0, 0⟩ (Entity.point ⟨0, 0, 0⟩)) 0)) b =
        if b = 0 then Entity.point (⟨2, 0, 0⟩ : V3 ℝ) else .point ⟨0, 0, 0⟩ := by
      intro b
      by_cases hb : b = 0
      · subst hb; simp [Coll.store, Entity.translate, V3.real_add]; norm_num
      · simp [Coll.store, hb]
    exact .cons ⟨0, rfl, by rw [this]; rfl⟩ (.cons ⟨0, rfl, by rw [this]; rfl⟩ .nil)

/-- A collection of a point, a line and a point. -/
example : ∃ (h : Heap ℝ) (c : Coll ℝ) (es : List (Entity ℝ)), Holds h c es ∧ es.length = 3 ∧
    c.entities.Nodup ∧ contain .point h c = .ok true ∧ are .point h c = .ok false ∧
    countOf .point h c = .ok 2 := by
  let h : Heap ℝ := fun a => if a = 1 then .line ⟨⟨0, 0, 0⟩, ⟨1, 0, 0⟩⟩ else .point ⟨0, 0, 0⟩
  refine ⟨h, ⟨[some 0, some 1, some 2], .empty⟩, [h 0, h 1, h 2], ?_, rfl, by decide, ?_, ?_, ?_⟩
  · exact .cons ⟨0, rfl, rfl⟩ (.cons ⟨1, rfl, rfl⟩ (.cons ⟨2, rfl, rfl⟩ .nil))
  · rfl
  · rfl
  · rfl

end Enve
