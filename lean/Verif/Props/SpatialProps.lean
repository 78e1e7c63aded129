import Verif.Props.CollectionProps
import Verif.Props.MoveProps
import Verif.Lemmas.Tree

/-! # C78: spatial queries on a collection -/

namespace Enve
open Scalar Spec

/-- The bounding box of `e` and the box with corners `lo`, `hi` have a point in common. -/
def Spec.Touches (e : Entity ℝ) (lo hi : V3 ℝ) : Prop :=
  ∃ l u p, e.clamp = some (l, u) ∧ InBox l u p ∧ InBox lo hi p

/-- The bounding boxes of `e` and `f` have a point in common. -/
def Spec.BoxesTouch (e f : Entity ℝ) : Prop := ∃ lo hi, f.clamp = some (lo, hi) ∧ Touches e lo hi

/-- The corners of a box are in order. -/
def Spec.Ordered (lo hi : V3 ℝ) : Prop := lo.x ≤ hi.x ∧ lo.y ≤ hi.y ∧ lo.z ≤ hi.z

/-- `c` holds the entities `es`: at least one, all of them proper and of bounded kind. -/
structure Spec.Searchable (h : Heap ℝ) (c : Coll ℝ) (es : List (Entity ℝ)) : Prop where
  holds : Holds h c es
  nonempty : es ≠ []
  proper : ∀ e ∈ es, Proper e ∧ (kind e).bounded = true

theorem Spec.clamp_ordered {e : Entity ℝ} (he : Proper e) {l u : V3 ℝ} (h : e.clamp = some (l, u)) :
    Ordered l u := by
  cases e with
  | point q => cases h; exact ⟨le_rfl, le_rfl, le_rfl⟩
  | segment s =>
    cases h
    simp only [Ordered, real_min, real_max]
    exact ⟨min_le_max, min_le_max, min_le_max⟩
  | triangle t =>
    cases h
    simp only [Ordered, real_min, real_max]
    exact ⟨(min_le_left _ _).trans (le_max_left _ _), (min_le_left _ _).trans (le_max_left _ _),
      (min_le_left _ _).trans (le_max_left _ _)⟩
  | disk d =>
    cases h
    have := he.2
    simp only [Ordered, real_add, real_neg]
    exact ⟨by linarith, by linarith, by linarith⟩
  | ball b =>
    cases h
    have : 0 < b.radius := he
    simp only [Ordered, real_add, real_neg]
    exact ⟨by linarith, by linarith, by linarith⟩
  | none => cases h
  | line _ => cases h
  | ray _ => cases h
  | plane _ => cases h

theorem Spec.clamp_bounded {e : Entity ℝ} (he : (kind e).bounded = true) : ∃ l u, e.clamp = some (l, u) := by
  cases e <;> first | exact ⟨_, _, rfl⟩ | (simp [kind, Kind.bounded] at he)

/-- Boxes in order are well formed. -/
theorem Box.WF_real {lo hi : V3 ℝ} (h : Ordered lo hi) (i j : Int) :
    (⟨lo, hi, i, j⟩ : Box ℝ).WF fun _ => True :=
  ⟨⟨trivial, trivial, trivial⟩, ⟨trivial, trivial, trivial⟩,
    by simpa [V3.Le, Ordered] using h⟩

theorem Box.ordered_of_WF {b : Box ℝ} (h : b.WF fun _ => True) : Ordered b.min b.max := by
  simpa [V3.Le, Ordered] using h.le

/-- The overlap test says whether the boxes share a point. -/
theorem Box.intersects_point {b d : Box ℝ} (hb : Ordered b.min b.max) (hd : Ordered d.min d.max) :
    b.intersects d = true ↔ ∃ p, InBox b.min b.max p ∧ InBox d.min d.max p := by
  rw [Box.intersects_iff]
  simp only [V3.Le, real_le, decide_eq_true_eq]
  constructor
  · rintro ⟨⟨h1, h2, h3⟩, h4, h5, h6⟩
    refine ⟨⟨Max.max b.min.x d.min.x, Max.max b.min.y d.min.y, Max.max b.min.z d.min.z⟩, ?_, ?_⟩
    · exact ⟨⟨le_max_left _ _, max_le hb.1 h4⟩, ⟨le_max_left _ _, max_le hb.2.1 h5⟩,
        le_max_left _ _, max_le hb.2.2 h6⟩
    · exact ⟨⟨le_max_right _ _, max_le h1 hd.1⟩, ⟨le_max_right _ _, max_le h2 hd.2.1⟩,
        le_max_right _ _, max_le h3 hd.2.2⟩
  · rintro ⟨p, ⟨⟨h1, h2⟩, ⟨h3, h4⟩, h5, h6⟩, ⟨k1, k2⟩, ⟨k3, k4⟩, k5, k6⟩
    exact ⟨⟨h1.trans k2, h3.trans k4, h5.trans k6⟩, k1.trans h2, k3.trans h4, k5.trans h6⟩

theorem Spec.forall₂_lhs {β γ : Type} {R : β → γ → Prop} {l : List β} {k : List γ}
    (h : List.Forall₂ R l k) {Q : β → Prop} (hq : ∀ b c, R b c → Q b) : ∀ b ∈ l, Q b := by
  induction h with
  | nil => simp
  | cons h _ ih => simpa [hq _ _ h] using ih

/-- A box of the tree of a collection: it is the box of the entity at the index it stores. -/
def Coll.Boxed (ents : List (Option Nat)) (b : Box ℝ) (x : Option Nat × Entity ℝ) : Prop :=
  Coll.at' ents b.id = .ok x.1 ∧ x.2.clamp = some (b.min, b.max) ∧ Ordered b.min b.max

theorem Coll.clampFrom_spec {h : Heap ℝ} {ps : List (Option Nat)} {es : List (Entity ℝ)}
    (hp : Points h ps es) (he : ∀ e ∈ es, Proper e ∧ (kind e).bounded = true) (pre : List (Option Nat)) :
    ∃ bs, Coll.clampFrom h pre.length ps = .ok bs ∧ List.Forall₂ (Coll.Boxed (pre ++ ps)) bs (ps.zip es) := by
  induction hp generalizing pre with
  | nil => exact ⟨[], rfl, .nil⟩
  | @cons p e ps es hd _ ih =>
    obtain ⟨a, rfl, rfl⟩ := hd
    obtain ⟨h1, h2⟩ := he _ List.mem_cons_self
    obtain ⟨l, u, hc⟩ := clamp_bounded h2
    obtain ⟨bs, e1, e2⟩ := ih (fun e hh => he e (List.mem_cons_of_mem _ hh)) (pre ++ [some a])
    have ho := clamp_ordered h1 hc
    have hm : Box.mk' l u (pre.length : Int) 0 = ⟨l, u, pre.length, 0⟩ :=
      Box.updateMaxMin_of_WF OrderOn.real (Box.WF_real ho _ _)
    refine ⟨⟨l, u, pre.length, 0⟩ :: bs, ?_, .cons ⟨?_, hc, ho⟩ ?_⟩
    · rw [List.length_append, List.length_singleton] at e1
      simp only [Coll.clampFrom, Coll.deref, Res.bind_ok, hc, e1, hm, Res.pure_eq]
    · simp [Coll.at']
    · rw [List.append_assoc] at e2; exact e2

theorem Coll.buildTree_spec {h : Heap ℝ} {c : Coll ℝ} {es : List (Entity ℝ)} (hc : Searchable h c es) :
    ∃ bs, c.buildTree h = .ok { c with tree := Tree.build bs } ∧ bs ≠ [] ∧
      (∀ b ∈ bs, b.WF fun _ => True) ∧ List.Forall₂ (Coll.Boxed c.entities) bs (c.entities.zip es) := by
  obtain ⟨bs, h1, h2⟩ := Coll.clampFrom_spec hc.holds hc.proper []
  refine ⟨bs, ?_, ?_, ?_, h2⟩
  · simp only [List.length_nil] at h1
    simp [Coll.buildTree, Coll.clamp, h1]
  · rintro rfl
    have := List.Forall₂.length_eq h2
    have hl := List.Forall₂.length_eq hc.holds
    have := List.length_pos_iff.2 hc.nonempty
    simp at *
    omega
  · intro b hb
    have : Ordered b.min b.max := forall₂_lhs (Q := fun b => Ordered b.min b.max) h2 (fun _ _ h => h.2.2) b hb
    exact Box.WF_real this b.id b.pos

theorem Coll.pickFirst_eq {ents : List (Option Nat)} {f : Box ℝ → Option Nat} (ps : List (Box ℝ × Box ℝ))
    (h : ∀ p ∈ ps, Coll.at' ents p.1.id = .ok (f p.1)) :
    Coll.pickFirst ents ps = .ok (ps.map fun p => f p.1) := by
  induction ps with
  | nil => rfl
  | cons p ps ih =>
    simp [Coll.pickFirst, h p List.mem_cons_self, ih fun q hq => h q (List.mem_cons_of_mem _ hq)]

theorem Coll.pickPairs_eq {en en' : List (Option Nat)} {f g : Box ℝ → Option Nat}
    (ps : List (Box ℝ × Box ℝ))
    (h : ∀ p ∈ ps, Coll.at' en p.1.id = .ok (f p.1) ∧ Coll.at' en' p.2.id = .ok (g p.2)) :
    Coll.pickPairs en en' ps = .ok ((ps.map fun p => (f p.1, g p.2)).flatMap fun x => [x.1, x.2]) := by
  induction ps with
  | nil => rfl
  | cons p ps ih =>
    obtain ⟨h1, h2⟩ := h p List.mem_cons_self
    simp [Coll.pickPairs, h1, h2, ih fun q hq => h q (List.mem_cons_of_mem _ hq)]

theorem Spec.flatMap_congr₂ {β γ δ : Type} {R : β → γ → Prop} {l : List β} {k : List γ}
    (h : List.Forall₂ R l k) {f : β → List δ} {g : γ → List δ} (hfg : ∀ b c, R b c → f b = g c) :
    l.flatMap f = k.flatMap g := by
  induction h with
  | nil => rfl
  | cons h _ ih => simp [hfg _ _ h, ih]

theorem Spec.filter_map_congr₂ {β γ δ : Type} {R : β → γ → Prop} {l : List β} {k : List γ}
    (h : List.Forall₂ R l k) {p : β → Bool} {q : γ → Bool} {f : β → δ} {g : γ → δ}
    (hfg : ∀ b c, R b c → f b = g c) (hpq : ∀ b c, R b c → p b = q c) :
    (l.filter p).map f = (k.filter q).map g := by
  induction h with
  | nil => rfl
  | cons h _ ih => simp only [List.filter_cons, hpq _ _ h]; split <;> simp [hfg _ _ h, ih]

/-- The pointer at the index stored in a box. -/
def Coll.pointer (ents : List (Option Nat)) (b : Box ℝ) : Option Nat := (ents[b.id.toNat]?).join

theorem Coll.Boxed.pointer {ents : List (Option Nat)} {b : Box ℝ} {x : Option Nat × Entity ℝ}
    (h : Coll.Boxed ents b x) : Coll.pointer ents b = x.1 ∧ Coll.at' ents b.id = .ok (Coll.pointer ents b) := by
  have h := h.1
  unfold Coll.at' at h
  unfold Coll.pointer
  split at h
  · cases h
  · rename_i hi
    cases hq : ents[b.id.toNat]? with
    | none => rw [hq] at h; cases h
    | some p =>
      rw [hq] at h
      cases h
      simp [Coll.at', hi, hq]

open Classical in
/-- **C78**, query boxes.  After `buildAABBtree` on a non-empty collection of bounded entities, the query with
a non-empty list of boxes returns each entity of the collection once for every box of the list its bounding
box meets, and nothing else. -/
theorem C78_boxes {h : Heap ℝ} {c : Coll ℝ} {es : List (Entity ℝ)} (hc : Searchable h c es) :
    ∃ c', c.buildTree h = .ok c' ∧ Holds h c' es ∧
      ∀ bs : List (Box ℝ), bs ≠ [] → (∀ b ∈ bs, Ordered b.min b.max) → ∃ out, c'.intersectBoxes bs = .ok out ∧
        out.Perm ((c.entities.zip es).flatMap fun x =>
          (bs.filter fun b => decide (Touches x.2 b.min b.max)).map fun _ => x.1) := by
  obtain ⟨ts, h1, h2, h3, h4⟩ := Coll.buildTree_spec hc
  refine ⟨_, h1, hc.holds, fun bs hne ho => ?_⟩
  have hw : ∀ b ∈ bs, b.WF fun _ => True := fun b hb => Box.WF_real (ho b hb) b.id b.pos
  obtain ⟨out, e1, e2⟩ := Tree.inter_spec OrderOn.real _ _ false
    (Tree.build_isHierarchy OrderOn.real ts h2 h3) (Tree.build_isHierarchy OrderOn.real bs hne hw)
  have e3 : out.Perm (Tree.brute false ts bs) :=
    e2.trans ((Tree.brute_perm _ (Tree.leaves_build ts) _).trans
      ((Tree.brute_comm _ _ _).trans ((Tree.brute_perm _ (Tree.leaves_build bs) _).trans
        (Tree.brute_comm _ _ _))))
  have hat : ∀ b ∈ ts, Coll.at' c.entities b.id = .ok (Coll.pointer c.entities b) :=
    forall₂_lhs h4 fun _ _ hb => hb.pointer.2
  refine ⟨out.map fun p => Coll.pointer c.entities p.1, ?_, ?_⟩
  · rw [Coll.intersectBoxes, Coll.intersectTree]
    simp only [e1, Res.bind_ok]
    refine Coll.pickFirst_eq (f := Coll.pointer c.entities) _ fun p hp => hat _ ?_
    have := e3.mem_iff.1 hp
    simp only [Tree.brute, Tree.pair, List.mem_flatMap, List.mem_map] at this
    obtain ⟨b, hb, -, -, rfl⟩ := this
    exact hb
  · refine (e3.map _).trans (List.Perm.of_eq ?_)
    rw [Tree.brute, List.map_flatMap]
    refine flatMap_congr₂ h4 fun b x hb => ?_
    rw [List.map_map]
    have : (fun p : Box ℝ × Box ℝ => Coll.pointer c.entities p.1) ∘ Tree.pair false b = fun _ => x.1 := by
      funext d; simp [Tree.pair, hb.pointer.1]
    rw [this]
    congr 1
    refine List.filter_congr fun d hd => ?_
    rw [Bool.eq_iff_iff, decide_eq_true_eq, Box.intersects_point hb.2.2 (ho d hd)]
    constructor
    · rintro ⟨p, hp, hq⟩; exact ⟨_, _, p, hb.2.1, hp, hq⟩
    · rintro ⟨l, u, p, hl, hp, hq⟩
      rw [hb.2.1] at hl; cases hl
      exact ⟨p, hp, hq⟩

open Classical in
/-- **C78**, one query box: the entities whose bounding box meets the query box, each of them once.  In
particular an entity with a point in the query box is returned. -/
theorem C78_box {h : Heap ℝ} {c : Coll ℝ} {es : List (Entity ℝ)} (hc : Searchable h c es) :
    ∃ c', c.buildTree h = .ok c' ∧ Holds h c' es ∧
      ∀ b : Box ℝ, Ordered b.min b.max → ∃ out, c'.intersectBox b = .ok out ∧
        out.Perm (((c.entities.zip es).filter fun x => decide (Touches x.2 b.min b.max)).map Prod.fst) ∧
        ∀ (i : Nat) (hi : i < es.length) (hi' : i < c.entities.length) (p : V3 ℝ),
          Has es[i] p → InBox b.min b.max p → c.entities[i] ∈ out := by
  obtain ⟨c', h1, h2, h3⟩ := C78_boxes hc
  refine ⟨c', h1, h2, fun b hb => ?_⟩
  obtain ⟨out, e1, e2⟩ := h3 [b] (by simp) (by simpa using hb)
  have e3 : (c.entities.zip es).flatMap (fun x =>
        ([b].filter fun b => decide (Touches x.2 b.min b.max)).map fun _ => x.1) =
      ((c.entities.zip es).filter fun x => decide (Touches x.2 b.min b.max)).map Prod.fst := by
    induction c.entities.zip es with
    | nil => rfl
    | cons x xs ih =>
      rw [List.flatMap_cons, ih, List.filter_cons, List.filter_cons]
      split <;> simp
  rw [e3] at e2
  refine ⟨out, e1, e2, fun i hi hi' p hp hq => e2.mem_iff.2 ?_⟩
  have hz : (c.entities[i], es[i]) ∈ c.entities.zip es := by
    rw [List.mem_iff_getElem]
    exact ⟨i, by simp [hi, hi'], by simp⟩
  refine List.mem_map.2 ⟨_, List.mem_filter.2 ⟨hz, ?_⟩, rfl⟩
  obtain ⟨l, u, hl⟩ := clamp_bounded (hc.proper _ (List.getElem_mem hi)).2
  simp only [decide_eq_true_eq]
  exact ⟨l, u, p, hl, C80_contains _ l u hl p hp, hq⟩

open Classical in
/-- **C78**, two collections.  The candidates are the pairs of entities with overlapping bounding boxes, one
after the other: first the entity of the receiver, then the entity of the argument.  In particular all pairs
of entities with a common point are candidates. -/
theorem C78_collections {h : Heap ℝ} {c d : Coll ℝ} {es fs : List (Entity ℝ)} (hc : Searchable h c es)
    (hd : Searchable h d fs) :
    ∃ c' d', c.buildTree h = .ok c' ∧ d.buildTree h = .ok d' ∧ Holds h c' es ∧ Holds h d' fs ∧
      ∃ ps : List (Option Nat × Option Nat), c'.intersectColl d' = .ok (ps.flatMap fun x => [x.1, x.2]) ∧
        ps.Perm ((c.entities.zip es).flatMap fun x =>
          ((d.entities.zip fs).filter fun y => decide (BoxesTouch x.2 y.2)).map fun y => (x.1, y.1)) ∧
        ∀ x ∈ c.entities.zip es, ∀ y ∈ d.entities.zip fs, ∀ p, Has x.2 p → Has y.2 p → (x.1, y.1) ∈ ps := by
  obtain ⟨ts, h1, h2, h3, h4⟩ := Coll.buildTree_spec hc
  obtain ⟨us, k1, k2, k3, k4⟩ := Coll.buildTree_spec hd
  obtain ⟨out, e1, e2⟩ := Tree.inter_spec OrderOn.real _ _ false
    (Tree.build_isHierarchy OrderOn.real ts h2 h3) (Tree.build_isHierarchy OrderOn.real us k2 k3)
  have e3 : out.Perm (Tree.brute false ts us) :=
    e2.trans ((Tree.brute_perm _ (Tree.leaves_build ts) _).trans
      ((Tree.brute_comm _ _ _).trans ((Tree.brute_perm _ (Tree.leaves_build us) _).trans
        (Tree.brute_comm _ _ _))))
  have hat : ∀ b ∈ ts, Coll.at' c.entities b.id = .ok (Coll.pointer c.entities b) :=
    forall₂_lhs h4 fun _ _ hb => hb.pointer.2
  have kat : ∀ b ∈ us, Coll.at' d.entities b.id = .ok (Coll.pointer d.entities b) :=
    forall₂_lhs k4 fun _ _ hb => hb.pointer.2
  have hperm : (out.map fun p => (Coll.pointer c.entities p.1, Coll.pointer d.entities p.2)).Perm
      ((c.entities.zip es).flatMap fun x =>
        ((d.entities.zip fs).filter fun y => decide (BoxesTouch x.2 y.2)).map fun y => (x.1, y.1)) := by
    refine (e3.map _).trans (List.Perm.of_eq ?_)
    rw [Tree.brute, List.map_flatMap]
    refine flatMap_congr₂ h4 fun b x hb => ?_
    rw [List.map_map]
    refine filter_map_congr₂ k4 (fun q y hq => ?_) fun q y hq => ?_
    · simp [Tree.pair, hb.pointer.1, hq.pointer.1]
    · rw [Bool.eq_iff_iff, decide_eq_true_eq, Box.intersects_point hb.2.2 hq.2.2]
      constructor
      · rintro ⟨p, hp, hr⟩; exact ⟨_, _, hq.2.1, _, _, p, hb.2.1, hp, hr⟩
      · rintro ⟨lo, hi, hk, l, u, p, hl, hp, hr⟩
        rw [hb.2.1] at hl; cases hl
        rw [hq.2.1] at hk; cases hk
        exact ⟨p, hp, hr⟩
  refine ⟨_, _, h1, k1, hc.holds, hd.holds, _, ?_, hperm, ?_⟩
  · rw [Coll.intersectColl]
    simp only [e1, Res.bind_ok]
    refine Coll.pickPairs_eq _ fun p hp => ?_
    have := e3.mem_iff.1 hp
    simp only [Tree.brute, Tree.pair, List.mem_flatMap, List.mem_map, List.mem_filter] at this
    obtain ⟨b, hb, q, ⟨hq, -⟩, rfl⟩ := this
    exact ⟨hat _ hb, kat _ hq⟩
  · intro x hx y hy p hp hq
    refine hperm.mem_iff.2 (List.mem_flatMap.2 ⟨x, hx, List.mem_map.2 ⟨y, List.mem_filter.2 ⟨hy, ?_⟩, rfl⟩⟩)
    obtain ⟨l, u, hl⟩ := clamp_bounded (hc.proper _ (List.of_mem_zip hx).2).2
    obtain ⟨lo, hi, hk⟩ := clamp_bounded (hd.proper _ (List.of_mem_zip hy).2).2
    simp only [decide_eq_true_eq]
    exact ⟨lo, hi, hk, l, u, p, hl, C80_contains _ l u hl p hp, C80_contains _ lo hi hk p hq⟩

/-- **C78**, unbounded entities: `buildAABBtree` reports an error as soon as one entity is not of bounded
kind. -/
theorem C78_unbounded {h : Heap ℝ} {c : Coll ℝ} {es : List (Entity ℝ)} (hc : Holds h c es) :
    (∃ w, c.buildTree h = .throw w) ↔ ∃ e ∈ es, (kind e).bounded = false := by
  have key : ∀ (ps : List (Option Nat)) (es : List (Entity ℝ)) (i : Nat), Points h ps es →
      ((∃ w, Coll.clampFrom h i ps = .throw w) ↔ ∃ e ∈ es, (kind e).bounded = false) ∧
      ((∀ e ∈ es, (kind e).bounded = true) → ∃ bs, Coll.clampFrom h i ps = .ok bs) := by
    intro ps es i hp
    induction hp generalizing i with
    | nil => exact ⟨⟨fun ⟨w, hw⟩ => (by cases hw), fun ⟨e, he, _⟩ => (by cases he)⟩, fun _ => ⟨[], rfl⟩⟩
    | @cons p e ps es hd _ ih =>
      obtain ⟨a, rfl, rfl⟩ := hd
      obtain ⟨i1, i2⟩ := ih (i + 1)
      cases hk : (kind (h a)).bounded with
      | false =>
        have hn : (h a).clamp = none := by
          generalize h a = e at hk
          cases e <;> first | rfl | (simp [kind, Kind.bounded] at hk)
        refine ⟨⟨fun _ => ⟨_, List.mem_cons_self, hk⟩, fun _ => ⟨"non-clampable object detected.", ?_⟩⟩,
          fun hall => ?_⟩
        · simp [Coll.clampFrom, Coll.deref, hn]
        · have := hall _ List.mem_cons_self
          rw [hk] at this; cases this
      | true =>
        obtain ⟨l, u, hl⟩ := clamp_bounded hk
        constructor
        · rw [List.exists_mem_cons_iff, hk]
          simp only [Bool.true_eq_false, false_or]
          rw [← i1]
          simp only [Coll.clampFrom, Coll.deref, Res.bind_ok, hl]
          cases Coll.clampFrom h (i + 1) ps <;> simp
        · intro hall
          obtain ⟨bs, hb⟩ := i2 fun e he => hall e (List.mem_cons_of_mem _ he)
          exact ⟨_, by simp only [Coll.clampFrom, Coll.deref, Res.bind_ok, hl, hb]; rfl⟩
  rw [← (key _ _ 0 hc).1]
  unfold Coll.buildTree Coll.clamp
  cases Coll.clampFrom h 0 c.entities <;> simp

/-- **C78 is false** before `buildAABBtree` and for the empty collection: the query dereferences a null
pointer. -/
theorem C78_no_tree_refuted (h : Heap ℝ) (ps : List (Option Nat)) (b : Box ℝ) :
    (∃ w, (Coll.ofEntities ps : Coll ℝ).intersectBox b = .ub w) ∧
    ∃ c', (Coll.empty : Coll ℝ).buildTree h = .ok c' ∧ ∃ w, c'.intersectBox b = .ub w := by
  have hi : ∀ t : Tree ℝ, Tree.inter Tree.empty t false = .ub "null m_ptrbox dereferenced" := by
    intro t; rw [Tree.empty, Tree.inter]; simp
  constructor
  · exact ⟨_, by rw [Coll.intersectBox, Coll.intersectBoxes, Coll.intersectTree, Coll.ofEntities, hi]; rfl⟩
  · refine ⟨Coll.empty, by simp [Coll.buildTree, Coll.clamp, Coll.clampFrom, Coll.empty, Tree.build], ?_⟩
    exact ⟨_, by rw [Coll.intersectBox, Coll.intersectBoxes, Coll.intersectTree, Coll.empty, hi]; rfl⟩

theorem Coll.buildTree_point (h : Heap ℝ) (a : Nat) (q : V3 ℝ) (ha : h a = .point q) :
    (⟨[some a], Tree.empty⟩ : Coll ℝ).buildTree h = .ok ⟨[some a], .mk (some ⟨q, q, 0, 0⟩) []⟩ := by
  have hm : Box.mk' q q 0 0 = ⟨q, q, 0, 0⟩ :=
    Box.updateMaxMin_of_WF OrderOn.real (Box.WF_real ⟨le_rfl, le_rfl, le_rfl⟩ _ _)
  simp [Coll.buildTree, Coll.clamp, Coll.clampFrom, Coll.deref, ha, Entity.clamp, Tree.build, hm]

/-- **C78 is false** after the entities were moved: the tree is not updated.  A point that is translated into
the query box is not found, and it is found where it was. -/
theorem C78_moved_refuted : ∃ (h h' : Heap ℝ) (c c' : Coll ℝ), Searchable h c [.point ⟨0, 0, 0⟩] ∧
    c.buildTree h = .ok c' ∧ c'.translate h ⟨5, 0, 0⟩ = .ok h' ∧ Holds h' c' [.point ⟨5, 0, 0⟩] ∧
    c'.intersectBox ⟨⟨5, 0, 0⟩, ⟨5, 0, 0⟩, 0, 0⟩ = .ok [] ∧
    c'.intersectBox ⟨⟨0, 0, 0⟩, ⟨0, 0, 0⟩, 0, 0⟩ = .ok c'.entities := by
  refine ⟨fun _ => .point ⟨0, 0, 0⟩, _, ⟨[some 0], Tree.empty⟩, _,
    ⟨.cons ⟨0, rfl, rfl⟩ .nil, by simp, by simp [Proper, kind, Kind.bounded]⟩,
    Coll.buildTree_point _ 0 _ rfl, by simp only [Coll.translate, Coll.mapLoop]; rfl, ?_, ?_, ?_⟩
  · refine .cons ⟨0, rfl, ?_⟩ .nil
    simp [Coll.store, Entity.translate, V3.real_add]
  · simp [Coll.intersectBox, Coll.intersectBoxes, Coll.intersectTree, Tree.build, Tree.inter, Box.intersects,
      Coll.pickFirst]
  · simp [Coll.intersectBox, Coll.intersectBoxes, Coll.intersectTree, Tree.build, Tree.inter, Box.intersects,
      Coll.pickFirst, Coll.at']

/-- **C78 is false** after `clear`: the tree is kept, and a query that meets one of its boxes reads beyond
the end of the (now empty) vector of entities. -/
theorem C78_clear_refuted : ∃ (h : Heap ℝ) (c c' : Coll ℝ), Searchable h c [.point ⟨0, 0, 0⟩] ∧
    c.buildTree h = .ok c' ∧ Holds h c'.clear [] ∧
    ∃ w, c'.clear.intersectBox ⟨⟨0, 0, 0⟩, ⟨0, 0, 0⟩, 0, 0⟩ = .ub w := by
  refine ⟨fun _ => .point ⟨0, 0, 0⟩, ⟨[some 0], Tree.empty⟩, _,
    ⟨.cons ⟨0, rfl, rfl⟩ .nil, by simp, by simp [Proper, kind, Kind.bounded]⟩,
    Coll.buildTree_point _ 0 _ rfl, .nil, "vector index out of range", ?_⟩
  simp [Coll.clear, Coll.intersectBox, Coll.intersectBoxes, Coll.intersectTree, Tree.build, Tree.inter,
    Box.intersects, Coll.pickFirst, Coll.at']

/-- The pairs `(es[i], es[j])` with `i ≤ j`, in lexicographic order. -/
def Spec.pairsUp {β : Type} : List β → List (β × β)
  | [] => []
  | e :: es => (e :: es).map (fun f => (e, f)) ++ pairsUp es

theorem Coll.meetLoop_iff {h : Heap ℝ} {ps : List (Option Nat)} {es : List (Entity ℝ)} (hp : Points h ps es)
    (tol : ℝ) (a : Nat) (rs : List (Entity ℝ)) : Coll.meetLoop h tol (some a) ps = .ok rs ↔
      List.Forall₂ (fun x r => Inter.entity x.1 x.2 tol = .ok r) (es.map fun f => (h a, f)) rs := by
  induction hp generalizing rs with
  | nil => simp [Coll.meetLoop, eq_comm]
  | @cons p e ps es hd _ ih =>
    obtain ⟨b, rfl, rfl⟩ := hd
    simp only [Coll.meetLoop, Coll.deref, Res.bind_ok, Res.bind_eq_ok, List.map_cons]
    constructor
    · rintro ⟨r, hr, rs', hrs, hh⟩
      cases hh
      exact .cons hr ((ih _).1 hrs)
    · intro hf
      cases hf with
      | cons h1 h2 => exact ⟨_, h1, _, (ih _).2 h2, rfl⟩

theorem Spec.forall₂_split {β γ : Type} {R : β → γ → Prop} {l k : List β} {rs : List γ}
    (h : List.Forall₂ R (l ++ k) rs) :
    ∃ r s, rs = r ++ s ∧ List.Forall₂ R l r ∧ List.Forall₂ R k s := by
  induction l generalizing rs with
  | nil => exact ⟨[], rs, rfl, .nil, h⟩
  | cons b l ih =>
    cases h with
    | cons h1 h2 =>
      obtain ⟨r, s, rfl, e1, e2⟩ := ih h2
      exact ⟨_ :: r, s, rfl, .cons h1 e1, e2⟩

/-- **C78**, all intersections: `intersection(entities, tolerance)` appends the intersections of the entities
number `i ≤ j` in lexicographic order, each entity with itself included, and returns whenever all of these
intersections do. -/
theorem C78_all {h : Heap ℝ} {c : Coll ℝ} {es : List (Entity ℝ)} (hc : Holds h c es)
    (tol : ℝ) (rs : List (Entity ℝ)) :
    Coll.meetAll h tol c.entities = .ok rs ↔
      List.Forall₂ (fun x r => Inter.entity x.1 x.2 tol = .ok r) (pairsUp es) rs := by
  unfold Holds at hc
  generalize c.entities = ps at hc
  induction hc generalizing rs with
  | nil => simp [Coll.meetAll, pairsUp, eq_comm]
  | @cons p e ps es hd hs ih =>
    obtain ⟨b, rfl, rfl⟩ := hd
    have hl := Coll.meetLoop_iff (List.Forall₂.cons ⟨b, rfl, rfl⟩ hs) tol b
    simp only [Coll.meetAll, Res.bind_eq_ok, pairsUp]
    constructor
    · rintro ⟨r, hr, rs', hrs, hh⟩
      cases hh
      exact List.rel_append ((hl _).1 hr) ((ih _).1 hrs)
    · intro hf
      obtain ⟨r, s, rfl, e1, e2⟩ := forall₂_split hf
      exact ⟨r, (hl _).2 e1, s, (ih _).2 e2, rfl⟩

/-- A collection of a segment and a ball is searchable; a box around the middle of the segment touches the
first one only. -/
example : ∃ (h : Heap ℝ) (c : Coll ℝ), Searchable h c [.segment ⟨⟨0, 0, 0⟩, ⟨2, 0, 0⟩⟩, .ball ⟨1, ⟨9, 0, 0⟩⟩] ∧
    Ordered ⟨1, 0, 0⟩ ⟨1, 0, 0⟩ ∧ Touches (.segment ⟨⟨0, 0, 0⟩, ⟨2, 0, 0⟩⟩) ⟨1, 0, 0⟩ ⟨1, 0, 0⟩ ∧
    ¬ Touches (.ball ⟨1, ⟨9, 0, 0⟩⟩) ⟨1, 0, 0⟩ ⟨1, 0, 0⟩ := by
  refine ⟨fun a => if a = 0 then .segment ⟨⟨0, 0, 0⟩, ⟨2, 0, 0⟩⟩ else .ball ⟨1, ⟨9, 0, 0⟩⟩,
    ⟨[some 0, some 1], Tree.empty⟩, ⟨.cons ⟨0, rfl, rfl⟩ (.cons ⟨1, rfl, rfl⟩ .nil), by simp, ?_⟩,
    ⟨le_rfl, le_rfl, le_rfl⟩, ?_, ?_⟩
  · intro e he
    simp only [List.mem_cons, List.not_mem_nil, or_false] at he
    rcases he with rfl | rfl <;> simp [Proper, kind, Kind.bounded]
  · refine ⟨_, _, ⟨1, 0, 0⟩, rfl, ?_, ?_⟩ <;> simp [InBox]
  · rintro ⟨l, u, p, hl, h1, h2⟩
    cases hl
    have a := h1.1.1
    have b := h2.1.2
    simp only [real_add, real_neg] at a
    norm_num at a b
    linarith

end Enve
