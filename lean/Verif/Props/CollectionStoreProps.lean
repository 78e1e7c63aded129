import Verif.Spec.CollectionStore
import Verif.Props.SpatialProps

/-! # C129: several collections in one program -/

namespace Enve
open Scalar Spec World

section
variable {α : Type} [Scalar α]

omit [Scalar α] in
/-- The trees are those of `w`, every collection has its tree, and the collections other than `k` are the same. -/
def World.Only (k : Nat) (w w' : World α) : Prop :=
  w'.trees = w.trees ∧ w'.colls.length = w.colls.length ∧ (∀ i : Nat, (w'.colls[i]?).map CollObj.tree = (w.colls[i]?).map CollObj.tree) ∧
    ∀ i : Nat, i ≠ k → w'.colls[i]? = w.colls[i]?

omit [Scalar α] in
theorem World.Only.refl (k : Nat) (w : World α) : Only k w w := ⟨rfl, rfl, fun _ => rfl, fun _ _ => rfl⟩

omit [Scalar α] in
theorem World.Only.trans {k : Nat} {w w' w'' : World α} (h : Only k w w') (h' : Only k w' w'') : Only k w w'' :=
  ⟨h'.1.trans h.1, h'.2.1.trans h.2.1, fun i => (h'.2.2.1 i).trans (h.2.2.1 i), fun i hi => (h'.2.2.2 i hi).trans (h.2.2.2 i hi)⟩

omit [Scalar α] in
theorem World.Only.modify (k : Nat) (w : World α) (f : List (Option Nat) → List (Option Nat)) :
    Only k w { w with colls := w.colls.modify k fun c => { c with entities := f c.entities } } := by
  refine ⟨rfl, by simp, fun i => ?_, fun i hi => ?_⟩
  · simp only [List.getElem?_modify]
    split
    · cases w.colls[i]? <;> rfl
    · cases w.colls[i]? <;> rfl
  · simp only [List.getElem?_modify, if_neg (Ne.symm hi)]
    cases w.colls[i]? <;> rfl

omit [Scalar α] in
theorem World.Only.push (k : Nat) (w : World α) (p : Option Nat) : Only k w (w.push k p) := .modify k w fun l => l ++ [p]

omit [Scalar α] in
theorem World.Only.setEntities (k : Nat) (w : World α) (es : List (Option Nat)) : Only k w (w.setEntities k es) :=
  .modify k w fun _ => es

omit [Scalar α] in
theorem World.get_eq_ok {w : World α} {i : Nat} {c : CollObj} : w.get i = .ok c ↔ w.colls[i]? = some c := by
  unfold World.get
  cases w.colls[i]? <;> simp

theorem World.Only.clear {k : Nat} {w w' : World α} (h : w.clear k = .ok w') : Only k w w' ∧ w' = w.setEntities k [] := by
  simp only [World.clear, Res.bind_eq_ok, Res.pure_eq, Res.ok.injEq] at h
  obtain ⟨_, -, rfl⟩ := h
  exact ⟨.setEntities _ _ _, rfl⟩

theorem World.Only.pairsLoop {i j k : Nat} {ps : List (Box α × Box α)} :
    ∀ {w w' : World α}, World.pairsLoop i j k w ps = .ok w' → Only k w w' := by
  induction ps with
  | nil => intro w w' h; cases h; exact .refl _ _
  | cons p ps ih =>
    intro w w' h
    simp only [World.pairsLoop, Res.bind_eq_ok] at h
    obtain ⟨_, -, a, -, _, -, b, -, h⟩ := h
    exact (Only.push _ _ _).trans ((Only.push _ _ _).trans (ih h))

theorem World.Only.firstLoop {i k : Nat} {ps : List (Box α × Box α)} :
    ∀ {w w' : World α}, World.firstLoop i k w ps = .ok w' → Only k w w' := by
  induction ps with
  | nil => intro w w' h; cases h; exact .refl _ _
  | cons p ps ih =>
    intro w w' h
    simp only [World.firstLoop, Res.bind_eq_ok] at h
    obtain ⟨_, -, a, -, h⟩ := h
    exact (Only.push _ _ _).trans (ih h)

theorem World.Only.meetPairs {i k : Nat} {tol : α} {ps : List (Nat × Nat)} :
    ∀ {w w' : World α}, World.meetPairs i k tol w ps = .ok w' → Only k w w' := by
  induction ps with
  | nil => intro w w' h; cases h; exact .refl _ _
  | cons p ps ih =>
    intro w w' h
    simp only [World.meetPairs, Res.bind_eq_ok] at h
    obtain ⟨_, -, _, -, _, -, _, -, _, -, _, -, r, -, h⟩ := h
    have h1 : Only k w { w with heap := Coll.store w.heap w.next r, next := w.next + 1 } :=
      ⟨rfl, rfl, fun _ => rfl, fun _ _ => rfl⟩
    exact h1.trans ((Only.push _ _ _).trans (ih h))

theorem World.Only.query {i j k : Nat} {w w' : World α} (h : w.query i j k = .ok w') : Only k w w' := by
  simp only [World.query, Res.bind_eq_ok] at h
  obtain ⟨w1, h1, _, -, _, -, _, -, _, -, ps, -, h⟩ := h
  exact (Only.clear h1).1.trans (.pairsLoop h)

theorem World.Only.queryBoxes {i k : Nat} {bs : List (Box α)} {w w' : World α} (h : w.queryBoxes i bs k = .ok w') : Only k w w' := by
  simp only [World.queryBoxes, World.queryTree, Res.bind_eq_ok] at h
  obtain ⟨w1, h1, _, -, _, -, ps, -, h⟩ := h
  exact (Only.clear h1).1.trans (.firstLoop h)

theorem World.Only.meet {i k : Nat} {tol : α} {w w' : World α} (h : w.meet i k tol = .ok w') : Only k w w' := by
  simp only [World.meet, Res.bind_eq_ok] at h
  obtain ⟨_, -, w1, h1, h⟩ := h
  exact (Only.clear h1).1.trans (.meetPairs h)

omit [Scalar α] in
theorem World.Only.view {k : Nat} {w w' : World α} (h : Only k w w') {j : Nat} (hj : j ≠ k) : view w' j = view w j := by
  unfold Spec.view
  rw [h.2.2.2 j hj, h.1]

/-! ## No two collections have one tree -/

/-- No two collections have the same tree, and the trees exist. -/
structure Spec.Separate (w : World α) : Prop where
  own : ∀ (i j : Nat) (c d : CollObj) (t : Nat), w.colls[i]? = some c → w.colls[j]? = some d → c.tree = some t → d.tree = some t → i = j
  alive : ∀ (i : Nat) (c : CollObj) (t : Nat), w.colls[i]? = some c → c.tree = some t → t < w.trees.length

omit [Scalar α] in
theorem Spec.Separate.only {k : Nat} {w w' : World α} (hs : Separate w) (h : World.Only k w w') : Separate w' := by
  have key : ∀ (i : Nat) (c : CollObj), w'.colls[i]? = some c → ∃ c', w.colls[i]? = some c' ∧ c'.tree = c.tree := by
    intro i c hc
    have := h.2.2.1 i
    rw [hc] at this
    cases hw : w.colls[i]? with
    | none => rw [hw] at this; cases this
    | some c' => rw [hw] at this; exact ⟨c', rfl, (Option.some.inj this).symm⟩
  constructor
  · intro i j c d t hc hd h1 h2
    obtain ⟨c', e1, e2⟩ := key i c hc
    obtain ⟨d', f1, f2⟩ := key j d hd
    exact hs.own i j c' d' t e1 f1 (e2.trans h1) (f2.trans h2)
  · intro i c t hc h1
    obtain ⟨c', e1, e2⟩ := key i c hc
    rw [h.1]
    exact hs.alive i c' t e1 (e2.trans h1)

theorem World.build_eq_ok {w w' : World α} {i : Nat} (h : w.build i = .ok w') :
    ∃ c t bs, w.colls[i]? = some c ∧ c.tree = some t ∧ Coll.clampFrom w.heap 0 c.entities = .ok bs ∧
      w' = { w with trees := w.trees.set t (Tree.build bs) } := by
  simp only [World.build, Res.bind_eq_ok, World.get_eq_ok, Res.pure_eq, Res.ok.injEq] at h
  obtain ⟨c, hc, bs, hb, x, hx, rfl⟩ := h
  unfold World.treeOf at hx
  cases ht : c.tree with
  | none => rw [ht] at hx; cases hx
  | some t => exact ⟨c, t, bs, hc, ht, hb, by simp⟩

theorem Spec.Separate.step {w w' : World α} (hs : Separate w) {c : Cmd α} (hc : ¬ IsCopy c) (h : w.exec c = .ok w') :
    Separate w' := by
  cases c with
  | create es =>
    cases h
    have key : ∀ (i : Nat) (c : CollObj), (w.colls ++ [(⟨es, some w.trees.length⟩ : CollObj)])[i]? = some c →
        w.colls[i]? = some c ∨ (i = w.colls.length ∧ c.tree = some w.trees.length) := by
      intro i c hi
      rw [List.getElem?_append] at hi
      split at hi
      · exact .inl hi
      · next hl =>
        right
        rw [List.getElem?_singleton] at hi
        split at hi
        · cases hi; exact ⟨by omega, rfl⟩
        · cases hi
    constructor
    · intro i j c d t hi hj h1 h2
      rcases key i c hi with hi | ⟨hi, ht⟩ <;> rcases key j d hj with hj | ⟨hj, hu⟩
      · exact hs.own i j c d t hi hj h1 h2
      · have := hs.alive i c t hi h1
        rw [h2] at hu
        exact absurd (Option.some.inj hu) (by omega)
      · have := hs.alive j d t hj h2
        rw [h1] at ht
        exact absurd (Option.some.inj ht) (by omega)
      · omega
    · intro i c t hi h1
      simp only [World.create, List.length_append, List.length_singleton]
      rcases key i c hi with hi | ⟨hi, ht⟩
      · have := hs.alive i c t hi h1; omega
      · rw [h1] at ht; have := Option.some.inj ht; omega
  | copy i => exact absurd trivial hc
  | move i =>
    simp only [World.exec, World.move, Res.bind_eq_ok, World.get_eq_ok, Res.pure_eq, Res.ok.injEq] at h
    obtain ⟨c0, h0, rfl⟩ := h
    have hi0 : i < w.colls.length := by
      by_contra hn
      rw [List.getElem?_eq_none (by omega)] at h0; cases h0
    have key : ∀ (j : Nat) (c : CollObj) (t : Nat), (w.colls.set i ⟨[], none⟩ ++ [c0])[j]? = some c → c.tree = some t →
        (j ≠ i ∧ j < w.colls.length ∧ w.colls[j]? = some c) ∨ (j = w.colls.length ∧ c = c0) := by
      intro j c t hj ht
      rw [List.getElem?_append] at hj
      simp only [List.length_set] at hj
      split at hj
      · next hl =>
        left
        rw [List.getElem?_set] at hj
        split at hj
        · cases hj; cases ht
        · next hne => exact ⟨fun e => hne e.symm, hl, hj⟩
      · next hl =>
        right
        rw [List.getElem?_singleton] at hj
        split at hj
        · cases hj; exact ⟨by omega, rfl⟩
        · cases hj
    constructor
    · intro a b c d t ha hb h1 h2
      rcases key a c t ha h1 with ⟨k1, k2, k3⟩ | ⟨k1, rfl⟩ <;> rcases key b d t hb h2 with ⟨l1, l2, l3⟩ | ⟨l1, rfl⟩
      · exact hs.own a b c d t k3 l3 h1 h2
      · exact absurd (hs.own a i c _ t k3 h0 h1 h2) k1
      · exact absurd (hs.own b i d _ t l3 h0 h2 h1) l1
      · omega
    · intro a c t ha h1
      rcases key a c t ha h1 with ⟨k1, k2, k3⟩ | ⟨k1, rfl⟩
      · exact hs.alive a c t k3 h1
      · exact hs.alive i _ t h0 h1
  | clear i => exact hs.only (Only.clear h).1
  | pushBack i p =>
    simp only [World.exec, World.pushBack, Res.bind_eq_ok, Res.pure_eq, Res.ok.injEq] at h
    obtain ⟨_, -, rfl⟩ := h
    exact hs.only (Only.push _ _ _)
  | build i =>
    obtain ⟨c, t, bs, h1, h2, -, rfl⟩ := World.build_eq_ok h
    exact ⟨hs.own, fun j d u hj hu => by simpa using hs.alive j d u hj hu⟩
  | query i j k => exact hs.only (Only.query h)
  | queryBoxes i bs k => exact hs.only (Only.queryBoxes h)
  | meet i k tol => exact hs.only (Only.meet h)

theorem Spec.Separate.run {cs : List (Cmd α)} : ∀ {w w' : World α}, Separate w → (∀ c ∈ cs, ¬ IsCopy c) → w.run cs = .ok w' →
    Separate w' := by
  induction cs with
  | nil => intro w w' hs _ h; cases h; exact hs
  | cons c cs ih =>
    intro w w' hs hc h
    simp only [World.run, Res.bind_eq_ok] at h
    obtain ⟨w1, h1, h2⟩ := h
    exact ih (hs.step (hc c (by simp)) h1) (fun d hd => hc d (by simp [hd])) h2

omit [Scalar α] in
theorem Spec.Separate.start (h : Heap α) (n : Nat) : Separate (start h n) :=
  ⟨fun i j c d t hc => by simp [Spec.start] at hc, fun i c t hc => by simp [Spec.start] at hc⟩

theorem Spec.Separate.frame {w w' : World α} (hs : Separate w) {c : Cmd α} (h : w.exec c = .ok w') {j : Nat}
    (hj : j < w.colls.length) (hw : ¬ Writes c j) : view w' j = view w j ∧ w.colls.length ≤ w'.colls.length := by
  cases c with
  | create es =>
    cases h
    refine ⟨?_, by simp [World.create]⟩
    unfold Spec.view World.create
    dsimp only
    rw [List.getElem?_append_left hj]
    cases hc : w.colls[j]? with
    | none => rfl
    | some c =>
      dsimp only
      cases ht : c.tree with
      | none => rfl
      | some t =>
        dsimp only
        rw [List.getElem?_append_left (hs.alive j c t hc ht)]
  | copy i =>
    simp only [World.exec, World.copy, Res.bind_eq_ok, Res.pure_eq, Res.ok.injEq] at h
    obtain ⟨c, -, rfl⟩ := h
    refine ⟨?_, by simp⟩
    unfold Spec.view
    dsimp only
    rw [List.getElem?_append_left hj]
  | move i =>
    simp only [World.exec, World.move, Res.bind_eq_ok, Res.pure_eq, Res.ok.injEq] at h
    obtain ⟨c, -, rfl⟩ := h
    refine ⟨?_, by simp⟩
    unfold Spec.view
    dsimp only
    rw [List.getElem?_append_left (by simpa using hj), List.getElem?_set_ne (fun e => hw e.symm)]
  | clear i =>
    have := (Only.clear h).1
    exact ⟨this.view hw, this.2.1.ge⟩
  | pushBack i p =>
    simp only [World.exec, World.pushBack, Res.bind_eq_ok, Res.pure_eq, Res.ok.injEq] at h
    obtain ⟨_, -, rfl⟩ := h
    have := Only.push i w p
    exact ⟨this.view hw, this.2.1.ge⟩
  | build i =>
    obtain ⟨c, t, bs, h1, h2, -, rfl⟩ := World.build_eq_ok h
    refine ⟨?_, le_rfl⟩
    unfold Spec.view
    dsimp only
    cases hd : w.colls[j]? with
    | none => rfl
    | some d =>
      dsimp only
      cases hu : d.tree with
      | none => rfl
      | some u =>
        dsimp only
        have : t ≠ u := by
          rintro rfl
          exact hw (hs.own j i d c t hd h1 hu h2)
        rw [List.getElem?_set_ne this]
  | query i k l => exact ⟨(Only.query h).view hw, (Only.query h).2.1.ge⟩
  | queryBoxes i bs k => exact ⟨(Only.queryBoxes h).view hw, (Only.queryBoxes h).2.1.ge⟩
  | meet i k tol => exact ⟨(Only.meet h).view hw, (Only.meet h).2.1.ge⟩

/-- **C129, independence (partial: without copies).**  Whatever a program did before, and whatever it does to its other
collections (creating, moving, filling, building, querying them, also with this collection as the argument of the query), a
collection keeps its entities and its tree, as long as no collection is copied. -/
theorem C129_independent_partial {h : Heap α} {n : Nat} {before after : List (Cmd α)} {w w' : World α}
    (h1 : (start h n).run before = .ok w) (h2 : w.run after = .ok w') (hb : ∀ c ∈ before, ¬ IsCopy c)
    (ha : ∀ c ∈ after, ¬ IsCopy c) {j : Nat} (hj : j < w.colls.length) (hw : ∀ c ∈ after, ¬ Writes c j) :
    view w' j = view w j := by
  have hs : Separate w := (Separate.start h n).run hb h1
  clear h1 hb
  induction after generalizing w with
  | nil => cases h2; rfl
  | cons c cs ih =>
    simp only [World.run, Res.bind_eq_ok] at h2
    obtain ⟨w1, e1, e2⟩ := h2
    obtain ⟨f1, f2⟩ := hs.frame e1 hj (hw c (by simp))
    rw [← f1]
    exact ih e2 (fun d hd => ha d (by simp [hd])) (lt_of_lt_of_le hj f2) (fun d hd => hw d (by simp [hd]))
      (hs.step (ha c (by simp)) e1)

/-! ## The operations are those on values, if the output is not one of the inputs -/

omit [Scalar α] in
theorem Spec.view_eq_some {w : World α} {i : Nat} {c : Coll α} : view w i = some c ↔
    ∃ t, w.colls[i]? = some ⟨c.entities, some t⟩ ∧ w.trees[t]? = some c.tree := by
  unfold Spec.view
  cases h : w.colls[i]? with
  | none => simp
  | some d =>
    obtain ⟨es, t⟩ := d
    cases t with
    | none => simp
    | some t =>
      dsimp only
      cases ht : w.trees[t]? with
      | none => simp [ht]
      | some x =>
        obtain ⟨es', x'⟩ := c
        simp [ht]

omit [Scalar α] in
theorem World.treeOf_view {w : World α} {i : Nat} {c : Coll α} (h : view w i = some c) :
    ∃ o, w.get i = .ok o ∧ o.entities = c.entities ∧ w.treeOf o = .ok c.tree := by
  obtain ⟨t, h1, h2⟩ := view_eq_some.1 h
  refine ⟨_, get_eq_ok.2 h1, rfl, ?_⟩
  simp [World.treeOf, h2]

omit [Scalar α] in
theorem World.push_setEntities (w : World α) (k : Nat) (es : List (Option Nat)) (p : Option Nat) :
    (w.setEntities k es).push k p = w.setEntities k (es ++ [p]) := by
  simp only [World.setEntities, World.push, List.modify_modify_eq]
  rfl

omit [Scalar α] in
theorem World.get_set_ne {w : World α} {i k : Nat} (h : i ≠ k) (es : List (Option Nat)) : (w.setEntities k es).get i = w.get i := by
  unfold World.get
  rw [(Only.setEntities k w es).2.2.2 i h]

theorem World.pairsLoop_value {w : World α} {i j k : Nat} (hi : i ≠ k) (hj : j ≠ k) {a b : CollObj} (ha : w.get i = .ok a)
    (hb : w.get j = .ok b) (ps : List (Box α × Box α)) : ∀ es : List (Option Nat),
    World.pairsLoop i j k (w.setEntities k es) ps =
      (Coll.pickPairs a.entities b.entities ps >>= fun out => .ok (w.setEntities k (es ++ out))) := by
  induction ps with
  | nil => intro es; simp [World.pairsLoop, Coll.pickPairs]
  | cons p ps ih =>
    intro es
    simp only [World.pairsLoop, Coll.pickPairs, get_set_ne hi, ha, Res.bind_ok]
    cases h1 : Coll.at' a.entities p.1.id with
    | throw m => rfl
    | ub m => rfl
    | ok x =>
      simp only [Res.bind_ok, push_setEntities, get_set_ne hj, hb]
      cases h2 : Coll.at' b.entities p.2.id with
      | throw m => rfl
      | ub m => rfl
      | ok y =>
        simp only [Res.bind_ok, push_setEntities, ih]
        cases Coll.pickPairs a.entities b.entities ps <;> simp

theorem World.firstLoop_value {w : World α} {i k : Nat} (hi : i ≠ k) {a : CollObj} (ha : w.get i = .ok a)
    (ps : List (Box α × Box α)) : ∀ es : List (Option Nat),
    World.firstLoop i k (w.setEntities k es) ps =
      (Coll.pickFirst a.entities ps >>= fun out => .ok (w.setEntities k (es ++ out))) := by
  induction ps with
  | nil => intro es; simp [World.firstLoop, Coll.pickFirst]
  | cons p ps ih =>
    intro es
    simp only [World.firstLoop, Coll.pickFirst, get_set_ne hi, ha, Res.bind_ok]
    cases h1 : Coll.at' a.entities p.1.id with
    | throw m => rfl
    | ub m => rfl
    | ok x =>
      simp only [Res.bind_ok, push_setEntities, ih]
      cases Coll.pickFirst a.entities ps <;> simp

omit [Scalar α] in
theorem World.treeOf_set (w : World α) (k : Nat) (es : List (Option Nat)) (o : CollObj) :
    (w.setEntities k es).treeOf o = w.treeOf o := rfl

/-- **C129, queries (partial: the output is neither the receiver nor the argument).**  The query stores in the output
collection what C78 says it finds, and changes nothing else; also when a collection is queried with itself. -/
theorem C129_query_partial {w : World α} {i j k : Nat} {c d : Coll α} (hc : view w i = some c) (hd : view w j = some d)
    (hk : k < w.colls.length) (hi : i ≠ k) (hj : j ≠ k) :
    w.query i j k = (c.intersectColl d >>= fun out => .ok (w.setEntities k out)) ∧
    (∀ bs, w.queryBoxes i bs k = (c.intersectBoxes bs >>= fun out => .ok (w.setEntities k out))) ∧
    ∀ out, (∀ e, view w k = some e → view (w.setEntities k out) k = some ⟨out, e.tree⟩) ∧
      ∀ l, l ≠ k → view (w.setEntities k out) l = view w l := by
  obtain ⟨a, a1, a2, a3⟩ := treeOf_view hc
  obtain ⟨b, b1, b2, b3⟩ := treeOf_view hd
  have hcl : w.clear k = .ok (w.setEntities k []) := by
    have : w.get k = .ok w.colls[k] := get_eq_ok.2 (List.getElem?_eq_getElem hk)
    simp [World.clear, this]
  refine ⟨?_, fun bs => ?_, fun out => ⟨fun e he => ?_, fun l hl => (Only.setEntities k w out).view hl⟩⟩
  · simp only [World.query, hcl, Res.bind_ok, get_set_ne hi, get_set_ne hj, a1, b1, treeOf_set, a3, b3, Coll.intersectColl]
    cases Tree.inter c.tree d.tree false with
    | throw m => rfl
    | ub m => rfl
    | ok ps =>
      simp only [Res.bind_ok]
      rw [World.pairsLoop_value hi hj a1 b1, a2, b2]
      rfl
  · simp only [World.queryBoxes, World.queryTree, hcl, Res.bind_ok, get_set_ne hi, a1, treeOf_set, a3, Coll.intersectBoxes,
      Coll.intersectTree]
    cases Tree.inter c.tree (Tree.build bs) false with
    | throw m => rfl
    | ub m => rfl
    | ok ps =>
      simp only [Res.bind_ok]
      rw [World.firstLoop_value hi a1, a2]
      rfl
  · obtain ⟨t, h1, h2⟩ := view_eq_some.1 he
    rw [view_eq_some]
    refine ⟨t, ?_, h2⟩
    simp [World.setEntities, List.getElem?_modify, h1]

/-- **C129, `buildAABBtree`** of a collection does to it what C78 describes. -/
theorem C129_build {w : World α} {i : Nat} {c : Coll α} (hc : view w i = some c) :
    (∀ c', c.buildTree w.heap = .ok c' → ∃ w', w.build i = .ok w' ∧ view w' i = some c' ∧ w'.heap = w.heap ∧
      w'.colls = w.colls) ∧
    (∀ m, c.buildTree w.heap = .throw m → w.build i = .throw m) := by
  obtain ⟨t, h1, h2⟩ := view_eq_some.1 hc
  have ht : t < w.trees.length := by
    by_contra hn
    rw [List.getElem?_eq_none (by omega)] at h2; cases h2
  have e : w.build i = (Coll.clampFrom w.heap 0 c.entities >>= fun bs =>
      .ok { w with trees := w.trees.set t (Tree.build bs) }) := by
    simp only [World.build, get_eq_ok.2 h1, Res.bind_ok]
    cases Coll.clampFrom w.heap 0 c.entities with
    | throw m => rfl
    | ub m => rfl
    | ok bs => simp [World.treeOf, h2]
  rw [e]
  unfold Coll.buildTree Coll.clamp
  cases Coll.clampFrom w.heap 0 c.entities with
  | throw m => exact ⟨fun c' h => (by cases h), fun m' h => by cases h; rfl⟩
  | ub m => exact ⟨fun c' h => (by cases h), fun m' h => (by cases h)⟩
  | ok bs =>
    refine ⟨fun c' h => ?_, fun m h => by cases h⟩
    simp only [Res.bind_ok, Res.pure_eq, Res.ok.injEq] at h
    subst h
    refine ⟨_, rfl, ?_, rfl, rfl⟩
    rw [view_eq_some]
    exact ⟨t, h1, by simp [ht]⟩

/-! ## The intersections of all pairs -/

omit [Scalar α] in
theorem World.indexPairs_succ (n : Nat) : World.indexPairs (n + 1) =
    ((List.range (n + 1)).map fun j => (0, j)) ++ (World.indexPairs n).map fun q => (q.1 + 1, q.2 + 1) := by
  simp only [World.indexPairs]
  rw [List.range_succ_eq_map, List.flatMap_cons, List.flatMap_map, List.map_flatMap]
  congr 1
  · rw [Nat.sub_zero, ← List.range_eq_range', List.range_succ_eq_map]
  · congr 1
    funext m
    simp only [List.map_map, Nat.succ_eq_add_one, Nat.add_sub_add_right]
    rw [List.range'_eq_map_range, List.range'_eq_map_range]
    simp only [List.map_map]
    congr 1
    funext x
    simp only [Function.comp, Prod.mk.injEq, true_and]
    omega

omit [Scalar α] in
theorem World.indexPairs_pairsUp {β : Type} (es : List β) :
    (World.indexPairs es.length).map (fun q => (es[q.1]?, es[q.2]?)) = (pairsUp es).map fun x => (some x.1, some x.2) := by
  induction es with
  | nil => rfl
  | cons e es ih =>
    rw [List.length_cons, World.indexPairs_succ, pairsUp, List.map_append, List.map_append, List.map_map, List.map_map, List.map_map]
    congr 1
    · apply List.ext_getElem
      · simp
      · intro m h1 h2
        simp only [List.length_map, List.length_range] at h1
        simp only [List.getElem_map, List.getElem_range, Function.comp, List.getElem?_cons_zero,
          List.getElem?_eq_getElem (show m < (e :: es).length by simpa using h1)]

theorem World.meetPairs_value {i k : Nat} (hi : i ≠ k) {tol : α} {es : List (Entity α)} {qs : List (Nat × Nat)}
    {rs : List (Entity α)}
    (hq : List.Forall₂ (fun q r => ∃ e f, es[q.1]? = some e ∧ es[q.2]? = some f ∧ Inter.entity e f tol = .ok r) qs rs) :
    ∀ (w : World α) (a b : CollObj) (old : List (Entity α)), w.get i = .ok a → w.get k = .ok b →
      Points w.heap a.entities es → (∀ x, some x ∈ a.entities → x < w.next) → Points w.heap b.entities old →
      (∀ x, some x ∈ b.entities → x < w.next) →
      ∃ w' b', World.meetPairs i k tol w qs = .ok w' ∧ w'.get k = .ok b' ∧ Points w'.heap b'.entities (old ++ rs) ∧
        ∀ x, x < w.next → w'.heap x = w.heap x := by
  have keep : ∀ (h : Heap α) (n : Nat) (r : Entity α) (ps : List (Option Nat)) (es : List (Entity α)), Points h ps es →
      (∀ x, some x ∈ ps → x < n) → Points (Coll.store h n r) ps es := by
    intro h n r ps es hp hlt
    unfold Points at hp ⊢
    induction hp with
    | nil => exact .nil
    | @cons p e ps es hd _ ih =>
      obtain ⟨x, rfl, rfl⟩ := hd
      have := hlt x (by simp)
      exact .cons ⟨x, rfl, by simp [Coll.store, show x ≠ n by omega]⟩ (ih fun y hy => hlt y (by simp [hy]))
  have look : ∀ (h : Heap α) (ps : List (Option Nat)) (es : List (Entity α)) (m : Nat) (e : Entity α), Points h ps es →
      es[m]? = some e → ∃ x, ps[m]? = some (some x) ∧ h x = e := by
    intro h ps es m e hp
    unfold Points at hp
    induction hp generalizing m with
    | nil => simp
    | @cons p e' ps es hd _ ih =>
      obtain ⟨x, rfl, rfl⟩ := hd
      cases m with
      | zero => simp
      | succ m => simpa using ih m
  induction hq with
  | nil =>
    intro w a b old _ hb _ _ hp _
    exact ⟨w, b, rfl, hb, by simpa using hp, fun _ _ => rfl⟩
  | @cons q r qs rs hd _ ih =>
    intro w a b old ha hb hpa hla hpb hlb
    obtain ⟨e, f, he, hf, hr⟩ := hd
    obtain ⟨m, n⟩ := q
    obtain ⟨x, x1, x2⟩ := look _ _ _ m e hpa he
    obtain ⟨y, y1, y2⟩ := look _ _ _ n f hpa hf
    have a1 : Coll.at' a.entities (m : Int) = .ok (some x) := by simp [Coll.at', x1]
    have a2 : Coll.at' a.entities (n : Int) = .ok (some y) := by simp [Coll.at', y1]
    simp only [World.meetPairs, ha, Res.bind_ok, a1, a2, Coll.deref, x2, y2, hr, Nat.add_sub_cancel]
    have g1 := (Only.push k ({ w with heap := Coll.store w.heap w.next r, next := w.next + 1 } : World α) (some w.next)).2.2.2 i hi
    obtain ⟨w', b', e1, e2, e3, e4⟩ := ih
      (World.push { w with heap := Coll.store w.heap w.next r, next := w.next + 1 } k (some w.next)) a
      { b with entities := b.entities ++ [some w.next] } (old ++ [r])
      (by rw [get_eq_ok] at ha ⊢; rw [g1]; exact ha)
      (by
        rw [get_eq_ok] at hb ⊢
        simp [World.push, List.getElem?_modify, hb])
      (keep _ _ _ _ _ hpa hla)
      (fun z hz => Nat.lt_succ_of_lt (hla z hz))
      ((keep _ _ _ _ _ hpb hlb).append (.cons ⟨w.next, rfl, by simp [World.push, Coll.store]⟩ .nil))
      (by
        intro z hz
        simp only [List.mem_append, List.mem_singleton, Option.some.injEq] at hz
        rcases hz with hz | rfl
        · exact Nat.lt_succ_of_lt (hlb z hz)
        · exact Nat.lt_succ_self _)
    refine ⟨w', b', e1, e2, by simpa using e3, fun z hz => ?_⟩
    rw [e4 z (Nat.lt_succ_of_lt hz)]
    simp [World.push, Coll.store, show z ≠ w.next by omega]

/-- **C129, all pairs (partial: the output is another collection).**  The output gets, in this order, new entities with the
intersections of the pairs `es[m], es[n]`, `m ≤ n`; the entities that existed keep their values. -/
theorem C129_meet_partial {w : World α} {i k : Nat} {c : Coll α} {es rs : List (Entity α)} {tol : α} (hc : view w i = some c)
    (hk : k < w.colls.length) (hi : i ≠ k) (he : Holds w.heap c es) (hl : ∀ x, some x ∈ c.entities → x < w.next)
    (hr : List.Forall₂ (fun x r => Inter.entity x.1 x.2 tol = .ok r) (pairsUp es) rs) :
    ∃ w' o, w.meet i k tol = .ok w' ∧ w'.colls[k]? = some o ∧ Points w'.heap o.entities rs ∧
      (∀ x, x < w.next → w'.heap x = w.heap x) ∧ ∀ l, l ≠ k → view w' l = view w l := by
  obtain ⟨t, h1, h2⟩ := view_eq_some.1 hc
  have hg : w.get k = .ok w.colls[k] := get_eq_ok.2 (List.getElem?_eq_getElem hk)
  have hcl : w.clear k = .ok (w.setEntities k []) := by simp [World.clear, hg]
  have hlen : c.entities.length = es.length := List.Forall₂.length_eq he
  have hq : List.Forall₂ (fun q r => ∃ e f, es[q.1]? = some e ∧ es[q.2]? = some f ∧ Inter.entity e f tol = .ok r)
      (World.indexPairs es.length) rs := by
    have h3 : List.Forall₂ (fun (x : Option (Entity α) × Option (Entity α)) r => ∃ e f, x.1 = some e ∧ x.2 = some f ∧
        Inter.entity e f tol = .ok r) ((pairsUp es).map fun x => (some x.1, some x.2)) rs := by
      rw [List.forall₂_map_left_iff]
      exact hr.imp fun x r h => ⟨x.1, x.2, rfl, rfl, h⟩
    rw [← World.indexPairs_pairsUp, List.forall₂_map_left_iff] at h3
    exact h3
  obtain ⟨w', b', e1, e2, e3, e4⟩ := World.meetPairs_value hi hq (w.setEntities k []) ⟨c.entities, some t⟩
    { w.colls[k] with entities := [] } [] (by rw [get_set_ne hi]; exact get_eq_ok.2 h1)
    (by rw [get_eq_ok]; simp [World.setEntities, List.getElem?_modify, List.getElem?_eq_getElem hk]) he hl .nil
    (fun x hx => by cases hx)
  have hm : w.meet i k tol = .ok w' := by
    simp only [World.meet, get_eq_ok.2 h1, Res.bind_ok, hcl, hlen]
    exact e1
  exact ⟨w', b', hm, get_eq_ok.1 e2, by simpa using e3, e4, fun l hl => (Only.meet hm).view hl⟩

/-! ## Sharing -/

/-- **C129 is false of copies**: a copy answers like the original, but it has no tree of its own.  Whatever the two
collections hold, building the tree of one of them replaces the tree of the other. -/
theorem C129_copy_refuted {w w1 : World α} {i : Nat} {c : Coll α} (hc : view w i = some c) (h1 : w.copy i = .ok w1) :
    view w1 w.colls.length = some c ∧
    ∀ (p : List (Option Nat)) (bs : List (Box α)), Coll.clampFrom w1.heap 0 p = .ok bs →
      ∃ w2, (w1.setEntities w.colls.length p).build w.colls.length = .ok w2 ∧ view w2 i = some ⟨c.entities, Tree.build bs⟩ := by
  obtain ⟨t, h2, h3⟩ := view_eq_some.1 hc
  have ht : t < w.trees.length := by
    by_contra hn
    rw [List.getElem?_eq_none (by omega)] at h3; cases h3
  have hil : i < w.colls.length := by
    by_contra hn
    rw [List.getElem?_eq_none (by omega)] at h2; cases h2
  simp only [World.copy, Res.bind_eq_ok, get_eq_ok, h2, Option.some.injEq, exists_eq_left', Res.pure_eq, Res.ok.injEq] at h1
  subst h1
  refine ⟨view_eq_some.2 ⟨t, by simp, h3⟩, fun p bs hb => ?_⟩
  refine ⟨{ (World.setEntities { w with colls := w.colls ++ [⟨c.entities, some t⟩] } w.colls.length p) with
    trees := w.trees.set t (Tree.build bs) }, ?_, ?_⟩
  · have hg : (World.setEntities { w with colls := w.colls ++ [⟨c.entities, some t⟩] } w.colls.length p).get w.colls.length =
        .ok ⟨p, some t⟩ := by
      rw [get_eq_ok]
      simp [World.setEntities, List.getElem?_modify]
    have hb' : Coll.clampFrom (World.setEntities { w with colls := w.colls ++ [⟨c.entities, some t⟩] } w.colls.length p).heap 0 p =
      .ok bs := hb
    simp only [World.build, hg, Res.bind_ok, hb']
    simp [World.treeOf, World.setEntities, h3]
  · rw [view_eq_some]
    refine ⟨t, ?_, by simp [ht]⟩
    have := (Only.setEntities w.colls.length { w with colls := w.colls ++ [⟨c.entities, some t⟩] } p).2.2.2 i (by omega)
    dsimp only at this ⊢
    rw [this, List.getElem?_append_left hil, h2]

/-- **C129 is false of the receiver as output**: a query that finds anything reads beyond the end of the cleared vector.
The same for the intersections of all pairs of a collection that is not empty. -/
theorem C129_receiver_refuted {w : World α} {i : Nat} {c : Coll α} (hc : view w i = some c) :
    (∀ bs x xs, Tree.inter c.tree (Tree.build bs) false = .ok (x :: xs) → (w.queryBoxes i bs i).isUb = true) ∧
    (∀ j d x xs, view w j = some d → Tree.inter c.tree d.tree false = .ok (x :: xs) → (w.query i j i).isUb = true) ∧
    (∀ tol, c.entities ≠ [] → (w.meet i i tol).isUb = true) := by
  obtain ⟨t, h2, h3⟩ := view_eq_some.1 hc
  have hcl : w.clear i = .ok (w.setEntities i []) := by simp [World.clear, get_eq_ok.2 h2]
  have hg : (w.setEntities i []).get i = .ok ⟨[], some t⟩ := by
    rw [get_eq_ok]; simp [World.setEntities, List.getElem?_modify, h2]
  have hat (z : Int) : Coll.at' [] z = .ub "vector index out of range" := by
    unfold Coll.at'; split <;> simp
  have htr : (w.setEntities i []).treeOf ⟨[], some t⟩ = .ok c.tree := by simp [World.treeOf, World.setEntities, h3]
  refine ⟨fun bs x xs hx => ?_, fun j d x xs hd hx => ?_, fun tol hne => ?_⟩
  · simp [World.queryBoxes, World.queryTree, hcl, hg, htr, hx, World.firstLoop, hat, Res.isUb]
  · obtain ⟨b, b1, b2, b3⟩ := treeOf_view hd
    have hj : ∃ o, (w.setEntities i []).get j = .ok o ∧ (w.setEntities i []).treeOf o = .ok d.tree := by
      by_cases e : j = i
      · subst e
        rw [hc] at hd
        exact ⟨_, hg, by rw [htr, Option.some.inj hd]⟩
      · exact ⟨b, by rw [get_set_ne e, b1], b3⟩
    obtain ⟨o, o1, o2⟩ := hj
    simp [World.query, hcl, hg, htr, o1, o2, hx, World.pairsLoop, hat, Res.isUb]
  · obtain ⟨p, ps, hps⟩ := List.exists_cons_of_ne_nil hne
    have : ∃ q, World.indexPairs c.entities.length = (0, 0) :: q := by
      rw [hps]
      simp only [World.indexPairs, List.length_cons, List.range_succ_eq_map, List.flatMap_cons, Nat.sub_zero, List.range'_succ,
        List.map_cons, List.cons_append]
      exact ⟨_, rfl⟩
    obtain ⟨q, hq⟩ := this
    simp [World.meet, get_eq_ok.2 h2, hcl, hq, World.meetPairs, hg, hat, Res.isUb]

/-- **C129 is false of a collection that was moved from**: building its tree, or querying it, dereferences a null pointer. -/
theorem C129_moved_refuted {w w1 : World α} {i : Nat} (h : w.move i = .ok w1) :
    (w1.build i).isUb = true ∧ (∀ bs k, k < w1.colls.length → (w1.queryBoxes i bs k).isUb = true) ∧
    (∀ c, view w i = some c → view w1 w.colls.length = some c) := by
  simp only [World.move, Res.bind_eq_ok, get_eq_ok, Res.pure_eq, Res.ok.injEq] at h
  obtain ⟨o, h1, rfl⟩ := h
  have hil : i < w.colls.length := by
    by_contra hn
    rw [List.getElem?_eq_none (by omega)] at h1; cases h1
  have hget : (w.colls.set i (⟨[], none⟩ : CollObj) ++ [o])[i]? = some ⟨[], none⟩ := by
    rw [List.getElem?_append_left (by simpa using hil), List.getElem?_set_self hil]
  refine ⟨?_, fun bs k hk => ?_, fun c hc => ?_⟩
  · have hg : World.get { w with colls := w.colls.set i ⟨[], none⟩ ++ [o] } i = .ok ⟨[], none⟩ := get_eq_ok.2 hget
    simp [World.build, hg, Coll.clampFrom, World.treeOf, Res.isUb]
  · have hg : ∃ es, (World.setEntities { w with colls := w.colls.set i ⟨[], none⟩ ++ [o] } k []).get i = .ok ⟨es, none⟩ := by
      have := (Only.setEntities k { w with colls := w.colls.set i ⟨[], none⟩ ++ [o] } []).2.2.1 i
      dsimp only at this
      rw [hget] at this
      cases hq : (World.setEntities { w with colls := w.colls.set i ⟨[], none⟩ ++ [o] } k []).colls[i]? with
      | none => rw [hq] at this; cases this
      | some q =>
        rw [hq] at this
        obtain ⟨es, tr⟩ := q
        have := Option.some.inj this
        dsimp only at this
        subst this
        exact ⟨es, get_eq_ok.2 hq⟩
    obtain ⟨es, hes⟩ := hg
    have hcl : World.clear { w with colls := w.colls.set i ⟨[], none⟩ ++ [o] } k =
        .ok (World.setEntities { w with colls := w.colls.set i ⟨[], none⟩ ++ [o] } k []) := by
      have : World.get { w with colls := w.colls.set i ⟨[], none⟩ ++ [o] } k = .ok _ := get_eq_ok.2 (List.getElem?_eq_getElem hk)
      simp [World.clear, this]
    simp [World.queryBoxes, World.queryTree, hcl, hes, World.treeOf, Res.isUb]
  · obtain ⟨t, k1, k2⟩ := view_eq_some.1 hc
    rw [h1] at k1
    have := Option.some.inj k1
    subst this
    exact view_eq_some.2 ⟨t, by simp, k2⟩

end

/-! ## Concrete programs -/

namespace Demo

/-- The point `(a, 0, 0)` at every address `a`. -/
def row : Heap ℝ := fun a => .point ⟨a, 0, 0⟩

/-- The box of one point. -/
def spot (x : ℝ) : Box ℝ := ⟨⟨x, 0, 0⟩, ⟨x, 0, 0⟩, 0, 0⟩

theorem spot_id (x : ℝ) : (spot x).id = 0 := rfl

/-- The tree of one point. -/
def leaf (x : ℝ) : Tree ℝ := .mk (some (spot x)) []

theorem build_one (a : Nat) : Coll.clampFrom row 0 [some a] = .ok [spot a] := by
  have hm : Box.mk' (⟨a, 0, 0⟩ : V3 ℝ) ⟨a, 0, 0⟩ 0 0 = ⟨⟨a, 0, 0⟩, ⟨a, 0, 0⟩, 0, 0⟩ :=
    Box.updateMaxMin_of_WF OrderOn.real (Box.WF_real ⟨le_rfl, le_rfl, le_rfl⟩ _ _)
  simp [Coll.clampFrom, Coll.deref, row, Entity.clamp, hm, spot]

theorem inter_leaf (x y : ℝ) : Tree.inter (leaf x) (leaf y) false = .ok (if x = y then [(spot x, spot y)] else []) := by
  by_cases h : x = y
  · subst h
    simp [leaf, spot, Tree.inter, Box.intersects]
  · rcases lt_or_gt_of_ne h with h | h
    · simp [leaf, spot, Tree.inter, Box.intersects, h.ne, h, h.not_ge]
    · simp [leaf, spot, Tree.inter, Box.intersects, h.ne', h, h.not_ge]

/-- Collection 0 holds the point at 5, collection 1 the point at 7 and collection 2 is for the answers. -/
def three : List (Cmd ℝ) := [.create [some 5], .build 0, .create [some 7], .build 1, .create []]

theorem run_three : (start row 100).run three =
    .ok ⟨row, 100, [leaf 5, leaf 7, Tree.empty], [⟨[some 5], some 0⟩, ⟨[some 7], some 1⟩, ⟨[], some 2⟩]⟩ := by
  simp [three, World.run, World.exec, World.create, World.build, World.get, World.treeOf, start, build_one, Tree.build, leaf]

end Demo

/-- The hypotheses of `C129_independent_partial` hold for a program that builds, queries, clears and moves. -/
example : ∃ w w' : World ℝ, (start Demo.row 100).run Demo.three = .ok w ∧
    w.run [.query 0 0 2, .clear 1, .pushBack 1 (some 5), .build 1, .query 1 0 2, .move 1] = .ok w' ∧
    (w'.colls.map CollObj.entities) = [[some 5], [], [some 5, some 5], [some 5]] ∧ view w' 0 = view w 0 ∧
    view w 0 = some ⟨[some 5], Demo.leaf 5⟩ := by
  have hrun : World.run ⟨Demo.row, 100, [Demo.leaf 5, Demo.leaf 7, Tree.empty],
      [⟨[some 5], some 0⟩, ⟨[some 7], some 1⟩, ⟨[], some 2⟩]⟩
      [.query 0 0 2, .clear 1, .pushBack 1 (some 5), .build 1, .query 1 0 2, .move 1] =
      .ok ⟨Demo.row, 100, [Demo.leaf 5, Demo.leaf 5, Tree.empty],
        [⟨[some 5], some 0⟩, ⟨[], none⟩, ⟨[some 5, some 5], some 2⟩, ⟨[some 5], some 1⟩]⟩ := by
    have hb : Tree.build [Demo.spot 5] = Demo.leaf 5 := by simp [Tree.build, Demo.leaf]
    have h5 := Demo.build_one 5
    simp only [Nat.cast_ofNat] at h5
    simp [World.run, World.exec, World.query, World.clear, World.setEntities, World.push, World.get, World.treeOf,
      Demo.inter_leaf, World.pairsLoop, Coll.at', World.pushBack, World.build, World.move, h5, hb, Demo.spot_id, List.modify]
  refine ⟨_, _, Demo.run_three, hrun, rfl, ?_, rfl⟩
  exact C129_independent_partial Demo.run_three hrun (by simp [Demo.three, IsCopy]) (by simp [IsCopy]) (by simp)
    (by simp [Writes])

/-- The hypotheses of `C129_meet_partial` hold for the collection of two equal points: the three intersections are points. -/
example : ∃ w : World ℝ, (start Demo.row 100).run [.create [some 5, some 5], .create []] = .ok w ∧
    ∃ w' o, w.meet 0 1 (1 / 8) = .ok w' ∧ w'.colls[1]? = some o ∧
      Points w'.heap o.entities [.point ⟨5, 0, 0⟩, .point ⟨5, 0, 0⟩, .point ⟨5, 0, 0⟩] := by
  have hp : Inter.entity (Entity.point (⟨5, 0, 0⟩ : V3 ℝ)) (.point ⟨5, 0, 0⟩) (1 / 8) = .ok (.point ⟨5, 0, 0⟩) := by
    simp [Inter.entity, Entity.isPoint, Inter.punctual, Inter.pointPoint, V3.isApprox, V3.real_sub, V3.real_sqNorm]
    norm_num [Inter.out]
  refine ⟨⟨Demo.row, 100, [Tree.empty, Tree.empty], [⟨[some 5, some 5], some 0⟩, ⟨[], some 1⟩]⟩,
    by simp [World.run, World.exec, World.create, start], ?_⟩
  obtain ⟨w', o, h1, h2, h3, -⟩ := C129_meet_partial
    (w := ⟨Demo.row, 100, [Tree.empty, Tree.empty], [⟨[some 5, some 5], some 0⟩, ⟨[], some 1⟩]⟩) (i := 0) (k := 1)
    (c := ⟨[some 5, some 5], Tree.empty⟩) (es := [.point ⟨5, 0, 0⟩, .point ⟨5, 0, 0⟩])
    (rs := [.point ⟨5, 0, 0⟩, .point ⟨5, 0, 0⟩, .point ⟨5, 0, 0⟩]) (tol := 1 / 8) rfl (by simp) (by simp)
    (.cons ⟨5, rfl, by simp [Demo.row]⟩ (.cons ⟨5, rfl, by simp [Demo.row]⟩ .nil)) (by simp)
    (.cons hp (.cons hp (.cons hp .nil)))
  exact ⟨w', o, h1, h2, h3⟩

/-- **C129 is false of copies, silently**: `b` is a copy of the collection `a` of one point and is given another point
instead.  After `b.buildAABBtree()` the collection `a` no longer finds its point, and it finds it where the point of `b` is. -/
theorem C129_copy_answer_refuted : ∃ w : World ℝ,
    (start Demo.row 100).run [.create [some 5], .build 0, .create [], .copy 0, .clear 2, .pushBack 2 (some 7), .build 2] = .ok w ∧
    (w.colls[0]?).map CollObj.entities = some [some 5] ∧
    w.queryBoxes 0 [Demo.spot 5] 1 = .ok w ∧ w.queryBoxes 0 [Demo.spot 7] 1 = .ok (w.setEntities 1 [some 5]) := by
  have hb (x : ℝ) : Tree.build [Demo.spot x] = Demo.leaf x := by simp [Tree.build, Demo.leaf]
  have h5 := Demo.build_one 5
  have h7 := Demo.build_one 7
  simp only [Nat.cast_ofNat] at h5 h7
  refine ⟨⟨Demo.row, 100, [Demo.leaf 7, Tree.empty], [⟨[some 5], some 0⟩, ⟨[], some 1⟩, ⟨[some 7], some 0⟩]⟩, ?_, rfl, ?_, ?_⟩
  · simp [World.run, World.exec, World.create, World.build, World.copy, World.clear, World.setEntities, World.pushBack,
      World.push, World.get, World.treeOf, start, h5, h7, hb, List.modify]
  · simp [World.queryBoxes, World.queryTree, World.clear, World.setEntities, World.get, World.treeOf, hb, Demo.inter_leaf,
      World.firstLoop, List.modify]
  · simp [World.queryBoxes, World.queryTree, World.clear, World.setEntities, World.get, World.treeOf, hb, Demo.inter_leaf,
      World.firstLoop, World.push, Coll.at', Demo.spot_id, List.modify]

/-- **C129 is false of the argument as output**: `a` holds the entity 5 and `b` the entity 105, which is the same point; the
pair that `a.intersection(b, b)` reports is that of the entity 5 with itself. -/
theorem C129_argument_refuted : ∃ (h : Heap ℝ) (w : World ℝ), h 5 = h 105 ∧
    (start h 200).run [.create [some 5], .build 0, .create [some 105], .build 1, .create []] = .ok w ∧
    w.query 0 1 2 = .ok (w.setEntities 2 [some 5, some 105]) ∧
    w.query 0 1 1 = .ok (w.setEntities 1 [some 5, some 5]) := by
  have hb (x : ℝ) : Tree.build [Demo.spot x] = Demo.leaf x := by simp [Tree.build, Demo.leaf]
  have hc (a : Nat) : Coll.clampFrom (fun _ => .point (⟨5, 0, 0⟩ : V3 ℝ)) 0 [some a] = .ok [Demo.spot 5] := by
    have hm : Box.mk' (⟨5, 0, 0⟩ : V3 ℝ) ⟨5, 0, 0⟩ 0 0 = ⟨⟨5, 0, 0⟩, ⟨5, 0, 0⟩, 0, 0⟩ :=
      Box.updateMaxMin_of_WF OrderOn.real (Box.WF_real ⟨le_rfl, le_rfl, le_rfl⟩ _ _)
    simp [Coll.clampFrom, Coll.deref, Entity.clamp, hm, Demo.spot]
  refine ⟨fun _ => .point ⟨5, 0, 0⟩, ⟨fun _ => .point ⟨5, 0, 0⟩, 200, [Demo.leaf 5, Demo.leaf 5, Tree.empty],
    [⟨[some 5], some 0⟩, ⟨[some 105], some 1⟩, ⟨[], some 2⟩]⟩, rfl, ?_, ?_, ?_⟩
  · simp [World.run, World.exec, World.create, World.build, World.get, World.treeOf, start, hc, hb]
  · simp [World.query, World.clear, World.setEntities, World.get, World.treeOf, Demo.inter_leaf, World.pairsLoop, World.push,
      Coll.at', Demo.spot_id, List.modify]
  · simp [World.query, World.clear, World.setEntities, World.get, World.treeOf, Demo.inter_leaf, World.pairsLoop, World.push,
      Coll.at', Demo.spot_id, List.modify]

end Enve
