import Verif.Lemmas.NearMono
import Verif.Lemmas.Order
import Verif.Props.BoxProps
import Verif.Props.DoubleProps
import Verif.Spec.Entity

/-! # C126: a bounding box and its operations -/

namespace Enve
open Scalar Spec

/-! ## Membership -/

/-- **C126, membership.**  `isInside` tells whether the point lies between the corners; in any arithmetic it is the
overlap test with the box that consists of the point. -/
theorem C126_inside :
    (∀ (b : Box ℝ) (p : V3 ℝ) (tol : ℝ), b.isInside p tol = true ↔ InBox b.min b.max p) ∧
    (∀ {α : Type} [Scalar α] (b : Box α) (p : V3 α) (tol : α) (id pos : Int),
      b.isInside p tol = b.intersects ⟨p, p, id, pos⟩) := by
  constructor
  · intro b p tol
    simp only [Box.isInside, Bool.and_eq_true, real_le, decide_eq_true_eq, InBox]
    tauto
  · intro α _ b p tol id pos
    rw [Bool.eq_iff_iff]
    simp only [Box.isInside, Box.intersects, Bool.and_eq_true]
    tauto

/-- **C126 is false of the tolerance**: whatever it is, a point that is nearer to a box than the tolerance can be reported
outside. -/
theorem C126_tolerance_refuted {tol : ℝ} (ht : 0 < tol) : ∃ (b : Box ℝ) (p q : V3 ℝ),
    b.checkMaxMin = true ∧ InBox b.min b.max q ∧ dist3 p q < tol ∧ b.isInside p tol = false := by
  refine ⟨⟨⟨0, 0, 0⟩, ⟨1, 1, 1⟩, 0, 0⟩, ⟨-(tol / 2), 0, 0⟩, ⟨0, 0, 0⟩, by simp [Box.checkMaxMin], ?_, ?_, ?_⟩
  · simp [InBox]
  · have : dist3 ⟨-(tol / 2), 0, 0⟩ ⟨0, 0, 0⟩ = tol / 2 := by
      simp only [dist3, sub_zero, ne_eq, OfNat.ofNat_ne_zero, not_false_eq_true, zero_pow, add_zero]
      rw [Real.sqrt_sq_eq_abs, abs_neg, abs_of_pos (by linarith)]
    rw [this]; linarith
  · rw [← Bool.not_eq_true, C126_inside.1]
    rintro ⟨⟨h, -⟩, -⟩
    simp only at h
    linarith

/-! ## Translation -/

/-- **C126, translation.**  The box moves with its points, keeps its identifiers, and two boxes that are moved together
meet exactly when they did before. -/
theorem C126_translate (b c : Box ℝ) (v : V3 ℝ) :
    (∀ p, InBox (b.translate v).min (b.translate v).max (V3.add v p) ↔ InBox b.min b.max p) ∧
    (b.translate v).id = b.id ∧ (b.translate v).pos = b.pos ∧
    (b.translate v).checkMaxMin = b.checkMaxMin ∧
    (b.translate v).intersects (c.translate v) = b.intersects c := by
  refine ⟨fun p => ?_, rfl, rfl, ?_, ?_⟩
  · simp [InBox, Box.translate, V3.real_add]
  · simp [Box.checkMaxMin, Box.translate, V3.real_add]
  · simp [Box.intersects, Box.translate, V3.real_add]

/-- The coordinates are numbers. -/
def Spec.Numbers (v : V3 B64) : Prop := (∃ x, v.x = B64.fin x) ∧ (∃ y, v.y = B64.fin y) ∧ ∃ z, v.z = B64.fin z

theorem B64.add_le_add {s a b : B64} (hs : ∃ x, s = B64.fin x) (ha : ∃ x, a = B64.fin x) (hb : ∃ x, b = B64.fin x)
    (h : (a <=. b) = true) : (s +. a <=. s +. b) = true := by
  obtain ⟨x, rfl⟩ := hs
  obtain ⟨y, rfl⟩ := ha
  obtain ⟨z, rfl⟩ := hb
  rw [B64.le_fin, decide_eq_true_eq] at h
  rw [B64.add_fin, B64.add_fin]
  exact B64.round_mono (by linarith)

/-- **C126, translation in double precision.**  However the corners are rounded, a point that is in the box and is moved
with it stays in the box; a box in order stays in order; boxes that meet still meet. -/
theorem C126_translate_double {b c : Box B64} {v p : V3 B64} (hv : Numbers v) (hp : Numbers p)
    (hb : Numbers b.min ∧ Numbers b.max) (hc : Numbers c.min ∧ Numbers c.max) (tol : B64) :
    (b.isInside p tol = true → (b.translate v).isInside (V3.add v p) tol = true) ∧
    (b.checkMaxMin = true → (b.translate v).checkMaxMin = true) ∧
    (b.intersects c = true → (b.translate v).intersects (c.translate v) = true) := by
  obtain ⟨vx, vy, vz⟩ := hv
  obtain ⟨px, py, pz⟩ := hp
  obtain ⟨⟨lx, ly, lz⟩, ux, uy, uz⟩ := hb
  obtain ⟨⟨mx, my, mz⟩, wx, wy, wz⟩ := hc
  simp only [Box.isInside, Box.checkMaxMin, Box.intersects, Box.translate, V3.add, Bool.and_eq_true]
  refine ⟨?_, ?_, ?_⟩
  · rintro ⟨⟨⟨⟨⟨h1, h2⟩, h3⟩, h4⟩, h5⟩, h6⟩
    exact ⟨⟨⟨⟨⟨B64.add_le_add vx lx px h1, B64.add_le_add vy ly py h2⟩, B64.add_le_add vz lz pz h3⟩,
      B64.add_le_add vx px ux h4⟩, B64.add_le_add vy py uy h5⟩, B64.add_le_add vz pz uz h6⟩
  · rintro ⟨⟨h1, h2⟩, h3⟩
    exact ⟨⟨B64.add_le_add vx lx ux h1, B64.add_le_add vy ly uy h2⟩, B64.add_le_add vz lz uz h3⟩
  · rintro ⟨⟨⟨⟨⟨h1, h2⟩, h3⟩, h4⟩, h5⟩, h6⟩
    exact ⟨⟨⟨⟨⟨B64.add_le_add vx lx wx h1, B64.add_le_add vx mx ux h2⟩, B64.add_le_add vy ly wy h3⟩,
      B64.add_le_add vy my uy h4⟩, B64.add_le_add vz lz wz h5⟩, B64.add_le_add vz mz uz h6⟩

/-- The converse is false in double precision: two boxes a metre apart, moved together far away, meet. -/
theorem C126_translate_double_refuted : ∃ (b c : Box B64) (v : V3 B64), Numbers v ∧ (Numbers b.min ∧ Numbers b.max) ∧
    (Numbers c.min ∧ Numbers c.max) ∧ b.checkMaxMin = true ∧ c.checkMaxMin = true ∧ b.intersects c = false ∧
    (b.translate v).intersects (c.translate v) = true := by
  have h0 : B64.fin (2 ^ 54) +. B64.fin 0 = B64.fin (2 ^ 54) := by
    rw [B64.add_fin, add_zero]
    exact B64.exact 1 54 (by norm_num) (by norm_num) (by norm_num) (by norm_num)
  have h1 : B64.fin (2 ^ 54) +. B64.fin 1 = B64.fin (2 ^ 54) := by
    rw [B64.add_fin]
    refine B64.round_eq 54 (2 ^ 52) ?_ (by norm_num) (by norm_num) ?_ ?_ ?_
    · norm_num
    · rw [abs_of_pos (by norm_num)]; norm_num
    · rw [abs_of_pos (by norm_num)]; norm_num
    · rw [show (2 ^ 54 + 1 - 2 ^ 54 : ℝ) = 1 by norm_num]; norm_num
  refine ⟨⟨⟨.fin 0, .fin 0, .fin 0⟩, ⟨.fin 0, .fin 0, .fin 0⟩, 0, 0⟩,
    ⟨⟨.fin 1, .fin 0, .fin 0⟩, ⟨.fin 1, .fin 0, .fin 0⟩, 0, 0⟩, ⟨.fin (2 ^ 54), .fin (2 ^ 54), .fin (2 ^ 54)⟩, ?_, ?_, ?_, ?_, ?_, ?_, ?_⟩
  · exact ⟨⟨_, rfl⟩, ⟨_, rfl⟩, _, rfl⟩
  · exact ⟨⟨⟨_, rfl⟩, ⟨_, rfl⟩, _, rfl⟩, ⟨_, rfl⟩, ⟨_, rfl⟩, _, rfl⟩
  · exact ⟨⟨⟨_, rfl⟩, ⟨_, rfl⟩, _, rfl⟩, ⟨_, rfl⟩, ⟨_, rfl⟩, _, rfl⟩
  · simp [Box.checkMaxMin]
  · simp [Box.checkMaxMin]
  · simp [Box.intersects]
  · simp only [Box.intersects, Box.translate, V3.add, h0, h1]
    simp

/-! ## Putting the corners in order, clearing, setting -/

/-- **C126, `updateMaxMin`.**  Afterwards the corners are in order, the box holds the points between the two old corners, in
whatever order they were; the flag is true exactly when they were in order, and then nothing changes. -/
theorem C126_update (b : Box ℝ) :
    b.updateMaxMin.checkMaxMin = true ∧
    (∀ p : V3 ℝ, InBox b.updateMaxMin.min b.updateMaxMin.max p ↔
      p.x ∈ Set.uIcc b.min.x b.max.x ∧ p.y ∈ Set.uIcc b.min.y b.max.y ∧ p.z ∈ Set.uIcc b.min.z b.max.z) ∧
    (b.updateMaxMinFlag = true ↔ b.checkMaxMin = true) ∧ (b.checkMaxMin = true ↔ b.updateMaxMin = b) := by
  obtain ⟨-, -, h1, h2⟩ := C14_constructor b.min b.max b.id b.pos
  have e : Box.mk' b.min b.max b.id b.pos = b.updateMaxMin := rfl
  rw [e] at h1 h2
  have h3 : b.updateMaxMin.checkMaxMin = true := by
    simpa [Box.checkMaxMin, and_assoc] using h1
  refine ⟨h3, h2, ?_, ?_⟩
  · simp [Box.updateMaxMinFlag, Box.checkMaxMin]
  · constructor
    · intro h
      simp only [Box.checkMaxMin, Bool.and_eq_true, real_le, decide_eq_true_eq] at h
      obtain ⟨⟨hx, hy⟩, hz⟩ := h
      obtain ⟨lo, hi, i, q⟩ := b
      simp only at hx hy hz
      simp [Box.updateMaxMin, Box.order1, not_lt.2 hx, not_lt.2 hy, not_lt.2 hz]
    · intro h
      rw [h] at h3; exact h3

/-- **C126, `clear`.**  A cleared box, in the arithmetic of `double`, holds no point, meets no box, itself included, keeps its
identifiers, and is not in order, although `updateMaxMin` leaves it alone and reports that it is. -/
theorem C126_clear (b c : Box B64) (p : V3 B64) (tol : B64) :
    b.clear.isInside p tol = false ∧ b.clear.intersects c = false ∧ c.intersects b.clear = false ∧
    b.clear.id = b.id ∧ b.clear.pos = b.pos ∧ b.clear.checkMaxMin = false ∧
    b.clear.updateMaxMin = b.clear ∧ b.clear.updateMaxMinFlag = true := by
  have le1 : ∀ a : B64, ((Scalar.nan : B64) <=. a) = false := by rintro ⟨a⟩; cases a <;> rfl
  have le2 : ∀ a : B64, (a <=. (Scalar.nan : B64)) = false := by rintro ⟨a⟩; cases a <;> rfl
  have lt : ((Scalar.nan : B64) <. (Scalar.nan : B64)) = false := rfl
  refine ⟨?_, ?_, ?_, rfl, rfl, ?_, ?_, ?_⟩ <;>
    simp [Box.isInside, Box.intersects, Box.clear, Box.checkMaxMin, Box.updateMaxMin, Box.updateMaxMinFlag, Box.order1,
      V3.nan, le1, le2, lt]

/-- **C126, setting a corner** followed by `updateMaxMin` is the box constructed from the two corners. -/
theorem C126_set_partial {α : Type} [Scalar α] (b : Box α) (p : V3 α) :
    (b.setMin p).updateMaxMin = Box.mk' p b.max b.id b.pos ∧ (b.setMax p).updateMaxMin = Box.mk' b.min p b.id b.pos ∧
    (b.setMin p).max = b.max ∧ (b.setMax p).min = b.min :=
  ⟨rfl, rfl, rfl, rfl⟩

/-- **C126 is false of the setters**: nothing keeps the corners in order.  A box whose upper corner was set below the lower
one holds no point, and the overlap test still reports that it meets other boxes. -/
theorem C126_set_refuted : ∃ (b c : Box ℝ) (p : V3 ℝ), b.checkMaxMin = true ∧ c.checkMaxMin = true ∧
    (∀ q, ¬ InBox (b.setMax p).min (b.setMax p).max q) ∧ (b.setMax p).intersects c = true := by
  refine ⟨⟨⟨0, 0, 0⟩, ⟨1, 1, 1⟩, 0, 0⟩, ⟨⟨-5, -5, -5⟩, ⟨5, 5, 5⟩, 0, 0⟩, ⟨-1, -1, -1⟩, by simp [Box.checkMaxMin], ?_, ?_, ?_⟩
  · simp only [Box.checkMaxMin, Bool.and_eq_true, real_le, decide_eq_true_eq]; norm_num
  · rintro q ⟨⟨h1, h2⟩, -⟩
    simp only [Box.setMax] at h1 h2
    linarith
  · simp only [Box.setMax, Box.intersects, Bool.and_eq_true, real_le, decide_eq_true_eq]; norm_num

/-! ## Examples -/

/-- A box, moved. -/
example : InBox ((⟨⟨0, 0, 0⟩, ⟨1, 1, 1⟩, 3, 4⟩ : Box ℝ).translate ⟨5, 0, -2⟩).min
    ((⟨⟨0, 0, 0⟩, ⟨1, 1, 1⟩, 3, 4⟩ : Box ℝ).translate ⟨5, 0, -2⟩).max ⟨5.5, 1, -1.5⟩ := by
  have h := ((C126_translate (⟨⟨0, 0, 0⟩, ⟨1, 1, 1⟩, 3, 4⟩ : Box ℝ) ⟨⟨0, 0, 0⟩, ⟨1, 1, 1⟩, 3, 4⟩ ⟨5, 0, -2⟩).1 ⟨0.5, 1, 0.5⟩).2
    (by norm_num [InBox])
  convert h using 1
  simp only [V3.real_add]; ext <;> norm_num

/-- A box whose corners are exchanged. -/
example : (⟨⟨2, 0, 1⟩, ⟨1, 1, 0⟩, 0, 0⟩ : Box ℝ).updateMaxMinFlag = false ∧
    InBox (⟨⟨2, 0, 1⟩, ⟨1, 1, 0⟩, 0, 0⟩ : Box ℝ).updateMaxMin.min (⟨⟨2, 0, 1⟩, ⟨1, 1, 0⟩, 0, 0⟩ : Box ℝ).updateMaxMin.max ⟨3 / 2, 1, 0⟩ := by
  constructor
  · rw [← Bool.not_eq_true, (C126_update _).2.2.1]
    simp [Box.checkMaxMin]
  · rw [(C126_update _).2.1]
    norm_num [Set.mem_uIcc]

end Enve
