import Verif.Model.AabbTree

/-! # Order laws for the comparisons, and boxes under these laws

Doubles other than NaN are linearly ordered by `<=`, and `a < b` is `!(b <= a)`; this is all the box
code relies on.  `OrderOn P` says so about the numbers satisfying `P`. -/

namespace Enve
open Scalar

/-- On the numbers satisfying `P` the comparisons are those of a linear order. For doubles, `P` is
"is not NaN"; for the exact reals `P` is always true. -/
structure OrderOn {α : Type} [Scalar α] (P : α → Prop) : Prop where
  lt_eq : ∀ {a b}, P a → P b → (a <. b) = !(b <=. a)
  total : ∀ {a b}, P a → P b → (a <=. b) = true ∨ (b <=. a) = true
  trans : ∀ {a b c}, P a → P b → P c → (a <=. b) = true → (b <=. c) = true → (a <=. c) = true

/-- The exact reals are ordered. -/
theorem OrderOn.real : OrderOn (fun _ : ℝ => True) where
  lt_eq := by intro a b _ _; by_cases h : a < b <;> simp [h, not_le.mpr, not_lt.mp]
  total := by intro a b _ _; simpa using le_total a b
  trans := by intro a b c _ _ _; simpa using le_trans

variable {α : Type} [Scalar α] {P : α → Prop}

namespace OrderOn
variable (ho : OrderOn P)
include ho

theorem refl {a : α} (ha : P a) : (a <=. a) = true := by
  rcases ho.total ha ha with h | h <;> exact h

omit ho in
theorem min_P {a b : α} (ha : P a) (hb : P b) : P (Scalar.min a b) := by
  unfold Scalar.min; split <;> assumption
omit ho in
theorem max_P {a b : α} (ha : P a) (hb : P b) : P (Scalar.max a b) := by
  unfold Scalar.max; split <;> assumption

theorem not_lt_le {a b : α} (ha : P a) (hb : P b) (h : (a <. b) = false) : (b <=. a) = true := by
  rw [ho.lt_eq ha hb] at h; simpa using h
theorem lt_le {a b : α} (ha : P a) (hb : P b) (h : (a <. b) = true) : (a <=. b) = true := by
  rw [ho.lt_eq ha hb] at h
  rcases ho.total ha hb with h' | h'
  · exact h'
  · simp [h'] at h

theorem min_le_left {a b : α} (ha : P a) (hb : P b) : (Scalar.min a b <=. a) = true := by
  unfold Scalar.min
  cases h : (b <. a)
  · simpa using ho.refl ha
  · simpa using ho.lt_le hb ha h
theorem min_le_right {a b : α} (ha : P a) (hb : P b) : (Scalar.min a b <=. b) = true := by
  unfold Scalar.min
  cases h : (b <. a)
  · simpa using ho.not_lt_le hb ha h
  · simpa using ho.refl hb
theorem le_max_left {a b : α} (ha : P a) (hb : P b) : (a <=. Scalar.max a b) = true := by
  unfold Scalar.max
  cases h : (a <. b)
  · simpa using ho.refl ha
  · simpa using ho.lt_le ha hb h
theorem le_max_right {a b : α} (ha : P a) (hb : P b) : (b <=. Scalar.max a b) = true := by
  unfold Scalar.max
  cases h : (a <. b)
  · simpa using ho.not_lt_le ha hb h
  · simpa using ho.refl hb
end OrderOn

/-- All coordinates of a vector satisfy `P`. -/
def V3.All (P : α → Prop) (v : V3 α) : Prop := P v.x ∧ P v.y ∧ P v.z

/-- Coordinatewise `<=`. -/
def V3.Le (a b : V3 α) : Prop := (a.x <=. b.x) = true ∧ (a.y <=. b.y) = true ∧ (a.z <=. b.z) = true

theorem V3.Le.refl (ho : OrderOn P) {a : V3 α} (h : a.All P) : V3.Le a a :=
  ⟨ho.refl h.1, ho.refl h.2.1, ho.refl h.2.2⟩

theorem V3.Le.trans (ho : OrderOn P) {a b c : V3 α} (ha : a.All P) (hb : b.All P) (hc : c.All P)
    (h : V3.Le a b) (h' : V3.Le b c) : V3.Le a c :=
  ⟨ho.trans ha.1 hb.1 hc.1 h.1 h'.1, ho.trans ha.2.1 hb.2.1 hc.2.1 h.2.1 h'.2.1,
   ho.trans ha.2.2 hb.2.2 hc.2.2 h.2.2 h'.2.2⟩

namespace Box

/-- The coordinates of the box satisfy `P` and its corners are in order. -/
structure WF (P : α → Prop) (b : Box α) : Prop where
  min_P : b.min.All P
  max_P : b.max.All P
  le : V3.Le b.min b.max

/-- `b` encloses `c`. -/
def Encloses (b c : Box α) : Prop := V3.Le b.min c.min ∧ V3.Le c.max b.max

theorem intersects_iff (b c : Box α) :
    b.intersects c = true ↔ V3.Le b.min c.max ∧ V3.Le c.min b.max := by
  simp only [intersects, Bool.and_eq_true, V3.Le]; tauto

theorem intersects_comm (b c : Box α) : b.intersects c = c.intersects b := by
  rw [Bool.eq_iff_iff, intersects_iff, intersects_iff, and_comm]

theorem Encloses.refl (ho : OrderOn P) {b : Box α} (h : b.WF P) : b.Encloses b :=
  ⟨.refl ho h.min_P, .refl ho h.max_P⟩

theorem Encloses.trans (ho : OrderOn P) {b c d : Box α} (hb : b.WF P) (hc : c.WF P) (hd : d.WF P)
    (h : b.Encloses c) (h' : c.Encloses d) : b.Encloses d :=
  ⟨.trans ho hb.min_P hc.min_P hd.min_P h.1 h'.1, .trans ho hd.max_P hc.max_P hb.max_P h'.2 h.2⟩

/-- An enclosing box meets everything the enclosed box meets. -/
theorem Encloses.intersects (ho : OrderOn P) {b c d e : Box α} (hb : b.WF P) (hc : c.WF P)
    (hd : d.WF P) (he : e.WF P) (h : b.Encloses c) (h' : d.Encloses e) (hi : c.intersects e = true) :
    b.intersects d = true := by
  rw [intersects_iff] at hi ⊢
  exact ⟨.trans ho hb.min_P hc.min_P hd.max_P h.1 (.trans ho hc.min_P he.max_P hd.max_P hi.1 h'.2),
    .trans ho hd.min_P he.min_P hb.max_P h'.1 (.trans ho he.min_P hc.max_P hb.max_P hi.2 h.2)⟩

theorem mergeStep_spec (ho : OrderOn P) {b c : Box α} (hb : b.WF P) (hc : c.WF P) :
    (mergeStep b c).WF P ∧ (mergeStep b c).Encloses b ∧ (mergeStep b c).Encloses c := by
  obtain ⟨⟨hb1, hb2, hb3⟩, ⟨hb4, hb5, hb6⟩, ⟨hb7, hb8, hb9⟩⟩ := hb
  obtain ⟨⟨hc1, hc2, hc3⟩, ⟨hc4, hc5, hc6⟩, ⟨hc7, hc8, hc9⟩⟩ := hc
  have e : mergeStep b c = ⟨⟨Scalar.min b.min.x c.min.x, Scalar.min b.min.y c.min.y,
      Scalar.min b.min.z c.min.z⟩, ⟨Scalar.max b.max.x c.max.x, Scalar.max b.max.y c.max.y,
      Scalar.max b.max.z c.max.z⟩, b.id, b.pos⟩ := rfl
  rw [e]
  have tr : ∀ {a b c d : α}, P a → P b → P c → P d → (b <=. c) = true →
      (Scalar.min b a <=. Scalar.max c d) = true := by
    intro a b c d ha hb hc hd h
    exact ho.trans (OrderOn.min_P hb ha) hb (OrderOn.max_P hc hd) (ho.min_le_left hb ha)
      (ho.trans hb hc (OrderOn.max_P hc hd) h (ho.le_max_left hc hd))
  refine ⟨⟨⟨OrderOn.min_P hb1 hc1, OrderOn.min_P hb2 hc2, OrderOn.min_P hb3 hc3⟩,
    ⟨OrderOn.max_P hb4 hc4, OrderOn.max_P hb5 hc5, OrderOn.max_P hb6 hc6⟩,
    ⟨tr hc1 hb1 hb4 hc4 hb7, tr hc2 hb2 hb5 hc5 hb8, tr hc3 hb3 hb6 hc6 hb9⟩⟩, ⟨?_, ?_⟩, ?_, ?_⟩
  · exact ⟨ho.min_le_left hb1 hc1, ho.min_le_left hb2 hc2, ho.min_le_left hb3 hc3⟩
  · exact ⟨ho.le_max_left hb4 hc4, ho.le_max_left hb5 hc5, ho.le_max_left hb6 hc6⟩
  · exact ⟨ho.min_le_right hb1 hc1, ho.min_le_right hb2 hc2, ho.min_le_right hb3 hc3⟩
  · exact ⟨ho.le_max_right hb4 hc4, ho.le_max_right hb5 hc5, ho.le_max_right hb6 hc6⟩

theorem foldl_mergeStep_spec (ho : OrderOn P) (bs : List (Box α)) (b : Box α) (hb : b.WF P)
    (h : ∀ c ∈ bs, c.WF P) :
    (bs.foldl mergeStep b).WF P ∧ (bs.foldl mergeStep b).Encloses b ∧
      ∀ c ∈ bs, (bs.foldl mergeStep b).Encloses c := by
  induction bs generalizing b with
  | nil => exact ⟨hb, .refl ho hb, by simp⟩
  | cons c cs ih =>
    have hc := h c (by simp)
    obtain ⟨h1, h2, h3⟩ := mergeStep_spec ho hb hc
    obtain ⟨k1, k2, k3⟩ := ih (mergeStep b c) h1 (fun d hd => h d (by simp [hd]))
    refine ⟨k1, .trans ho k1 h1 hb k2 h2, ?_⟩
    intro d hd
    rcases List.mem_cons.mp hd with rfl | hd
    · exact .trans ho k1 h1 hc k2 h3
    · exact k3 d hd

theorem updateMaxMin_of_WF (ho : OrderOn P) {b : Box α} (h : b.WF P) : b.updateMaxMin = b := by
  obtain ⟨⟨h1, h2, h3⟩, ⟨h4, h5, h6⟩, ⟨h7, h8, h9⟩⟩ := h
  have e : ∀ {a b : α}, P a → P b → (a <=. b) = true → order1 a b = (a, b) := by
    intro a b ha hb h; simp [order1, ho.lt_eq hb ha, h]
  simp [updateMaxMin, e h1 h4 h7, e h2 h5 h8, e h3 h6 h9]

/-- The box built around a non-empty list of boxes encloses them all. -/
theorem ofBoxes_spec (ho : OrderOn P) (bs : List (Box α)) (hne : bs ≠ []) (h : ∀ c ∈ bs, c.WF P)
    (id pos : Int) : (ofBoxes bs id pos).WF P ∧ ∀ c ∈ bs, (ofBoxes bs id pos).Encloses c := by
  cases bs with
  | nil => exact absurd rfl hne
  | cons b bs =>
    have hb := h b (by simp)
    have hb' : (⟨b.min, b.max, id, pos⟩ : Box α).WF P := ⟨hb.1, hb.2, hb.3⟩
    obtain ⟨k1, k2, k3⟩ := foldl_mergeStep_spec ho bs ⟨b.min, b.max, id, pos⟩ hb'
      (fun c hc => h c (by simp [hc]))
    have e : ofBoxes (b :: bs) id pos = bs.foldl mergeStep ⟨b.min, b.max, id, pos⟩ :=
      updateMaxMin_of_WF ho k1
    rw [e]
    refine ⟨k1, ?_⟩
    intro c hc
    rcases List.mem_cons.mp hc with rfl | hc
    · exact k2
    · exact k3 c hc

/-- What encloses two boxes encloses their merger. -/
theorem Encloses.mergeStep {b c d : Box α} (h : d.Encloses b) (h' : d.Encloses c) :
    d.Encloses (mergeStep b c) := by
  obtain ⟨⟨h1, h2, h3⟩, h4, h5, h6⟩ := h
  obtain ⟨⟨k1, k2, k3⟩, k4, k5, k6⟩ := h'
  refine ⟨⟨?_, ?_, ?_⟩, ?_, ?_, ?_⟩ <;> simp only [Box.mergeStep] <;> split <;> assumption

theorem encloses_foldl {d : Box α} (bs : List (Box α)) (b : Box α) (h : d.Encloses b)
    (hs : ∀ c ∈ bs, d.Encloses c) : d.Encloses (bs.foldl Box.mergeStep b) := by
  induction bs generalizing b with
  | nil => exact h
  | cons c cs ih =>
    exact ih _ (h.mergeStep (hs c (by simp))) (fun e he => hs e (by simp [he]))

/-- `ofBoxes` is the smallest enclosing box. -/
theorem ofBoxes_least (ho : OrderOn P) (bs : List (Box α)) (hne : bs ≠ []) (h : ∀ c ∈ bs, c.WF P)
    (id pos : Int) {d : Box α} (hd : ∀ c ∈ bs, d.Encloses c) : d.Encloses (ofBoxes bs id pos) := by
  cases bs with
  | nil => exact absurd rfl hne
  | cons b bs =>
    have hb := h b (by simp)
    have hb' : (⟨b.min, b.max, id, pos⟩ : Box α).WF P := ⟨hb.1, hb.2, hb.3⟩
    obtain ⟨k1, -⟩ := foldl_mergeStep_spec ho bs ⟨b.min, b.max, id, pos⟩ hb'
      (fun c hc => h c (by simp [hc]))
    have e : ofBoxes (b :: bs) id pos = bs.foldl Box.mergeStep ⟨b.min, b.max, id, pos⟩ :=
      updateMaxMin_of_WF ho k1
    rw [e]
    exact encloses_foldl bs _ (hd b (by simp)) (fun c hc => hd c (by simp [hc]))

theorem ofBoxes_mono (ho : OrderOn P) (l k : List (Box α)) (hl : l ≠ []) (hk : k ≠ [])
    (h : ∀ c ∈ k, c.WF P) (hs : ∀ c ∈ l, c ∈ k) : (ofBoxes k 0 0).Encloses (ofBoxes l 0 0) :=
  ofBoxes_least ho l hl (fun c hc => h c (hs c hc)) 0 0
    (fun c hc => (ofBoxes_spec ho k hk h 0 0).2 c (hs c hc))

end Box
end Enve
