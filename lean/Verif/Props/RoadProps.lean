import Verif.Spec.Road
import Verif.Props.AccurateProps

/-! # C107: the sampling method measures the height of the road -/

namespace Enve

open Scalar Spec

namespace Road

/-- The point of the triangle closest in barycentric coordinates to a point slightly outside. -/
theorem clamp {e D H : ℝ} (he : 0 ≤ e) (he1 : e ≤ 1) {t : Triangle ℝ} (hx1 : |t.v1.x - t.v0.x| ≤ D) (hx2 : |t.v2.x - t.v0.x| ≤ D)
    (hy1 : |t.v1.y - t.v0.y| ≤ D) (hy2 : |t.v2.y - t.v0.y| ≤ D) (hz1 : |t.v1.z - t.v0.z| ≤ H) (hz2 : |t.v2.z - t.v0.z| ≤ H)
    {p : V3 ℝ} (h : NearTriangle e t p) :
    ∃ q, InTriangle t.v0 t.v1 t.v2 q ∧ |p.x - q.x| ≤ 8 * e * D ∧ |p.y - q.y| ≤ 8 * e * D ∧ |p.z - q.z| ≤ 8 * e * H := by
  obtain ⟨x, y, z, h0, h1, h2, hs, rfl⟩ := h
  have hk : 0 < 1 + 3 * e := by linarith
  have hx : x = 1 - y - z := by linarith
  obtain ⟨c, hc⟩ : ∃ c, c = (3 * e * y - e) / (1 + 3 * e) := ⟨_, rfl⟩
  obtain ⟨d, hd⟩ : ∃ d, d = (3 * e * z - e) / (1 + 3 * e) := ⟨_, rfl⟩
  have bound : ∀ w, -e ≤ w → w ≤ 1 + 2 * e → |(3 * e * w - e) / (1 + 3 * e)| ≤ 4 * e := by
    intro w hw hw'
    rw [abs_le, le_div_iff₀ hk, div_le_iff₀ hk]
    constructor <;> nlinarith
  have hc4 : |c| ≤ 4 * e := by rw [hc]; exact bound y h1 (by linarith)
  have hd4 : |d| ≤ 4 * e := by rw [hd]; exact bound z h2 (by linarith)
  have comb : ∀ a b M : ℝ, |a| ≤ M → |b| ≤ M → |c * a + d * b| ≤ 8 * e * M := by
    intro a b M ha hb
    calc |c * a + d * b| ≤ |c| * |a| + |d| * |b| := by rw [← abs_mul, ← abs_mul]; exact abs_add_le _ _
      _ ≤ 4 * e * M + 4 * e * M := by
        apply add_le_add <;> exact mul_le_mul ‹_› ‹_› (abs_nonneg _) (by linarith)
      _ = 8 * e * M := by ring
  refine ⟨_, ⟨(x + e) / (1 + 3 * e), (y + e) / (1 + 3 * e), (z + e) / (1 + 3 * e), by apply div_nonneg <;> linarith,
    by apply div_nonneg <;> linarith, by apply div_nonneg <;> linarith, ?_, rfl⟩, ?_, ?_, ?_⟩
  · rw [← add_div, ← add_div, div_eq_one_iff_eq hk.ne']; linarith
  · convert comb _ _ _ hx1 hx2 using 2
    rw [hc, hd, hx]; dsimp only; field_simp; ring
  · convert comb _ _ _ hy1 hy2 using 2
    rw [hc, hd, hx]; dsimp only; field_simp; ring
  · convert comb _ _ _ hz1 hz2 using 2
    rw [hc, hd, hx]; dsimp only; field_simp; ring

theorem vertex0 (a b c : V3 ℝ) : InTriangle a b c a := ⟨1, 0, 0, by norm_num, le_rfl, le_rfl, by norm_num, by ext <;> simp⟩
theorem vertex1 (a b c : V3 ℝ) : InTriangle a b c b := ⟨0, 1, 0, le_rfl, by norm_num, le_rfl, by norm_num, by ext <;> simp⟩
theorem vertex2 (a b c : V3 ℝ) : InTriangle a b c c := ⟨0, 0, 1, le_rfl, le_rfl, by norm_num, by norm_num, by ext <;> simp⟩

/-- The height of a triangle of a gentle road. -/
theorem rise {L D : ℝ} {ts : List (TriangleGround ℝ)} (hG : Gentle L ts) (hS : Sized D ts) (hL : 0 ≤ L) {t : TriangleGround ℝ}
    (ht : t ∈ ts) : |t.tri.v1.z - t.tri.v0.z| ≤ 2 * (L * D) ∧ |t.tri.v2.z - t.tri.v0.z| ≤ 2 * (L * D) := by
  obtain ⟨⟨a, b⟩, c, d⟩ := hS t ht
  constructor
  · refine (hG _ _ ⟨t, ht, vertex1 _ _ _⟩ ⟨t, ht, vertex0 _ _ _⟩).trans ?_
    nlinarith
  · refine (hG _ _ ⟨t, ht, vertex2 _ _ _⟩ ⟨t, ht, vertex0 _ _ _⟩).trans ?_
    nlinarith

theorem box_down (t : Triangle ℝ) : |box3 (V3.neg V3.ez) t| = plan2 t := by
  have : (V3.neg V3.ez : V3 ℝ) = ⟨0, 0, -1⟩ := by simp [V3.neg, V3.ez]
  rw [this]
  simp only [box3, minus, plan2]
  rw [← abs_neg]; congr 1; ring

theorem on_down {o p : V3 ℝ} : OnLine ⟨o, V3.neg V3.ez⟩ p ↔ p.x = o.x ∧ p.y = o.y := by
  have : (V3.neg V3.ez : V3 ℝ) = ⟨0, 0, -1⟩ := by simp [V3.neg, V3.ez]
  rw [this]
  constructor
  · rintro ⟨t, rfl⟩; simp [along]
  · rintro ⟨h1, h2⟩
    exact ⟨o.z - p.z, by ext <;> simp [along, h1, h2]⟩

end Road

/-- **C107 (partial), the height.**  The surface is nowhere steeper than `L`, the triangles are at most `D` long, and the vertical line
goes through a point `p` of a triangle that is, seen from above, not smaller than the tolerance.  The sampling line finds the ground,
vertically above or below its origin, never below the road and at most `32 eps L D` above it; the friction is that of a triangle one of whose
points is, horizontally, at most `8 eps D` away. -/
theorem C107_height_partial {L D : ℝ} {ts : List (TriangleGround ℝ)} (hG : Gentle L ts) (hS : Sized D ts) (hL : 0 ≤ L)
    {t : TriangleGround ℝ} (ht : t ∈ ts) (hv : Scalar.eps ≤ plan2 t.tri) {p o : V3 ℝ} (hp : InTriangle t.tri.v0 t.tri.v1 t.tri.v2 p)
    (hx : p.x = o.x) (hy : p.y = o.y) :
    ∃ q f, Rib.samplingLineMesh ts ⟨o, V3.neg V3.ez⟩ = some (q, f) ∧ q.x = o.x ∧ q.y = o.y ∧ p.z ≤ q.z ∧
      q.z ≤ p.z + 32 * Scalar.eps * L * D ∧
      ∃ t' ∈ ts, t'.friction = f ∧ ∃ p', InTriangle t'.tri.v0 t'.tri.v1 t'.tri.v2 p' ∧ |p'.x - o.x| ≤ 8 * Scalar.eps * D ∧
        |p'.y - o.y| ≤ 8 * Scalar.eps * D := by
  have hbox := Road.box_down t.tri
  have hline := Road.on_down (o := o) (p := p) |>.2 ⟨hx, hy⟩
  have hhit := ((C50_line_triangle_tolerance ⟨o, V3.neg V3.ez⟩ t.tri Scalar.eps real_eps_pos).2 (by rw [hbox]; exact hv)).1 p hline hp
  cases hq : Rib.samplingLineMesh ts ⟨o, V3.neg V3.ez⟩ with
  | none => rw [((C28_highest_hit OrderOn.real ts _).1.1 hq) t ht] at hhit; cases hhit
  | some qf =>
    obtain ⟨q, f⟩ := qf
    obtain ⟨⟨t', ht', hql, hnear, hf⟩, hmax⟩ := C28_highest_ground ts _ q f hq
    obtain ⟨hqx, hqy⟩ := Road.on_down.1 hql
    obtain ⟨⟨a1, a2⟩, a3, a4⟩ := hS t' ht'
    obtain ⟨r1, r2⟩ := Road.rise hG hS hL ht'
    obtain ⟨p', hp', b1, b2, b3⟩ := Road.clamp real_eps_pos.le real_eps_lt_one.le a1 a3 a2 a4 r1 r2 hnear
    refine ⟨q, f, rfl, hqx, hqy, hmax t ht p (by rw [hbox]; exact hv) hline hp, ?_, t', ht', hf, p', hp', ?_, ?_⟩
    · have hg := hG p' p ⟨t', ht', hp'⟩ ⟨t, ht, hp⟩
      rw [hx, hy, ← hqx, ← hqy, abs_sub_comm p'.x, abs_sub_comm p'.y] at hg
      have h1 := (le_abs_self _).trans b3
      have h2 := (le_abs_self _).trans (hg.trans (mul_le_mul_of_nonneg_left (add_le_add b1 b2) hL))
      linarith
    · rw [abs_sub_comm, ← hqx]; exact b1
    · rw [abs_sub_comm, ← hqy]; exact b2

/-- **C107 (partial), the triangulation.**  Two meshes describe the same surface, which is nowhere steeper than `L`; their triangles are at
most `D` long and, seen from above, not smaller than the tolerance.  Below or above every point of the surface both are found, at heights that
differ by at most `32 eps L D`. -/
theorem C107_triangulation_partial {L D : ℝ} {ts ts' : List (TriangleGround ℝ)} (hsame : SameSurface ts ts') (hG : Gentle L ts)
    (hL : 0 ≤ L) (hS : Sized D ts) (hS' : Sized D ts') (hV : Visible Scalar.eps ts) (hV' : Visible Scalar.eps ts') {p o : V3 ℝ}
    (hp : OnMesh ts p) (hx : p.x = o.x) (hy : p.y = o.y) :
    ∃ q f q' f', Rib.samplingLineMesh ts ⟨o, V3.neg V3.ez⟩ = some (q, f) ∧
      Rib.samplingLineMesh ts' ⟨o, V3.neg V3.ez⟩ = some (q', f') ∧ q.x = q'.x ∧ q.y = q'.y ∧
      |q.z - q'.z| ≤ 32 * Scalar.eps * L * D := by
  have hG' : Gentle L ts' := fun a b ha hb => hG a b ((hsame a).2 ha) ((hsame b).2 hb)
  obtain ⟨t, ht, hpt⟩ := hp
  obtain ⟨t', ht', hpt'⟩ := (hsame p).1 ⟨t, ht, hpt⟩
  obtain ⟨q, f, h1, h2, h3, h4, h5, -⟩ := C107_height_partial hG hS hL ht (hV t ht) hpt hx hy
  obtain ⟨q', f', k1, k2, k3, k4, k5, -⟩ := C107_height_partial hG' hS' hL ht' (hV' t' ht') hpt' hx hy
  refine ⟨q, f, q', f', h1, k1, by rw [h2, k2], by rw [h3, k3], ?_⟩
  rw [abs_le]; constructor <;> linarith

/-- **C107 (partial), a plane road.**  All triangles are in the plane of a flat ground and have its friction; the four sampling lines of the rib
go through triangles that are not smaller than the tolerance.  Then the record on the mesh is exactly the record on the flat ground. -/
theorem C107_plane_partial {g : Flat ℝ} (hup : Scalar.eps < g.plane.normal.z) {ts : List (TriangleGround ℝ)}
    (hplane : ∀ p, OnMesh ts p → OnPlane g.plane p) (hfr : ∀ t ∈ ts, t.friction = g.friction) (hV : Visible Scalar.eps ts) (r : Rib ℝ)
    (P : Affine ℝ)
    (hover : ∀ l ∈ [r.lineXp P, r.lineXm P, r.lineYp P, r.lineYm P], ∃ p, OnMesh ts p ∧ p.x = l.origin.x ∧ p.y = l.origin.y) :
    r.envelopSamplingMesh ts P = r.envelopSamplingFlat g P := by
  have hz : 0 < g.plane.normal.z := real_eps_pos.trans hup
  have foot : ∀ (o p : V3 ℝ), p.x = o.x → p.y = o.y → OnPlane g.plane p → p = footAt g.plane.origin g.plane.normal o := by
    intro o p h1 h2 h3
    simp only [OnPlane, dot3, minus, h1, h2] at h3
    ext
    · exact h1
    · exact h2
    · simp only [footAt]; field_simp; linarith
  have key : ∀ o : V3 ℝ, (∃ p, OnMesh ts p ∧ p.x = o.x ∧ p.y = o.y) →
      Rib.samplingLineMesh ts ⟨o, V3.neg V3.ez⟩ = Rib.samplingLineFlat g ⟨o, V3.neg V3.ez⟩ := by
    rintro o ⟨p, ⟨t, ht, hpt⟩, hx, hy⟩
    have hline := Road.on_down (o := o) (p := p) |>.2 ⟨hx, hy⟩
    have hhit := ((C50_line_triangle_tolerance ⟨o, V3.neg V3.ez⟩ t.tri Scalar.eps real_eps_pos).2
      (by rw [Road.box_down]; exact hV t ht)).1 p hline hpt
    rw [Accurate.sample_exact hup rfl]
    cases hq : Rib.samplingLineMesh ts ⟨o, V3.neg V3.ez⟩ with
    | none => rw [((C28_highest_hit OrderOn.real ts _).1.1 hq) t ht] at hhit; cases hhit
    | some qf =>
      obtain ⟨q, f⟩ := qf
      obtain ⟨⟨t', ht', hql, ⟨x, y, z, -, -, -, hs, he⟩, hf⟩, -⟩ := C28_highest_ground ts _ q f hq
      obtain ⟨hqx, hqy⟩ := Road.on_down.1 hql
      have h0 := hplane _ ⟨t', ht', Road.vertex0 _ _ _⟩
      have h1 := hplane _ ⟨t', ht', Road.vertex1 _ _ _⟩
      have h2 := hplane _ ⟨t', ht', Road.vertex2 _ _ _⟩
      have hq' : OnPlane g.plane q := by
        simp only [OnPlane, dot3, minus] at h0 h1 h2 ⊢
        have hx' : x = 1 - y - z := by linarith
        rw [he, hx']
        linear_combination (1 - y - z) * h0 + y * h1 + z * h2
      rw [foot o q hqx hqy hq', ← hf, hfr t' ht']
  have hl : ∀ l ∈ [r.lineXp P, r.lineXm P, r.lineYp P, r.lineYm P],
      Rib.samplingLineMesh ts l = Rib.samplingLineFlat g l := by
    intro l hl
    have hd : l = ⟨l.origin, V3.neg V3.ez⟩ := by
      simp only [List.mem_cons, List.not_mem_nil, or_false] at hl
      rcases hl with rfl | rfl | rfl | rfl <;> rfl
    rw [hd]
    exact key _ (hover l hl)
  simp only [List.forall_mem_cons] at hl
  obtain ⟨l0, l1, l2, l3, -⟩ := hl
  unfold Rib.envelopSamplingMesh Rib.envelopSamplingFlat Rib.envelopSampling
  rw [l0, l1, l2, l3]

/-- A road that rises by one half: the hypotheses are met, and the line finds it. -/
example (t : TriangleGround ℝ) (ht : t.tri = ⟨⟨0, 0, 0⟩, ⟨1, 0, 1 / 2⟩, ⟨0, 1, 0⟩⟩) :
    Gentle (1 / 2) [t] ∧ Sized 1 [t] ∧ Visible Scalar.eps [t] ∧
      ∃ q f, Rib.samplingLineMesh [t] ⟨⟨1 / 2, 1 / 4, 3⟩, V3.neg V3.ez⟩ = some (q, f) ∧ 1 / 4 ≤ q.z ∧ q.z ≤ 1 / 4 + 16 * Scalar.eps := by
  have hz : ∀ p, OnMesh [t] p → p.z = p.x / 2 := by
    rintro p ⟨t', ht', a, b, c, -, -, -, -, rfl⟩
    rw [List.mem_singleton] at ht'
    rw [ht', ht]; dsimp only; ring
  have hG : Gentle (1 / 2) [t] := by
    intro p q hp hq
    rw [hz p hp, hz q hq, show p.x / 2 - q.x / 2 = (p.x - q.x) / 2 by ring, abs_div, abs_two]
    have := abs_nonneg (p.y - q.y)
    linarith
  have hS : Sized 1 [t] := by
    intro t' ht'
    rw [List.mem_singleton] at ht'
    rw [ht', ht]; norm_num
  have hv : plan2 t.tri = 1 := by rw [ht]; norm_num [plan2]
  refine ⟨hG, hS, ?_, ?_⟩
  · intro t' ht'
    rw [List.mem_singleton] at ht'
    rw [ht', hv]; exact real_eps_lt_one.le
  · obtain ⟨q, f, h1, -, -, h2, h3, -⟩ := C107_height_partial (o := ⟨1 / 2, 1 / 4, 3⟩) (p := ⟨1 / 2, 1 / 4, 1 / 4⟩) hG hS (by norm_num)
      (List.mem_singleton.2 rfl) (by rw [hv]; exact real_eps_lt_one.le)
      (by rw [ht]; exact ⟨1 / 4, 1 / 2, 1 / 4, by norm_num, by norm_num, by norm_num, by norm_num, by ext <;> norm_num⟩) rfl rfl
    exact ⟨q, f, h1, h2, by dsimp only at h3; linarith⟩

/-! ## Too fine a mesh -/

namespace Road

/-- A ground triangle as the constructor makes it, friction one. -/
noncomputable def tile (a b c : V3 ℝ) : TriangleGround ℝ :=
  TriangleGround.updateBBox (TriangleGround.updateNormal ⟨⟨a, b, c⟩, 0, 1, V3.nan, Box.default⟩)

theorem tile_make (a b c : V3 ℝ) : TriangleGround.make 0 1 a b c = .ok (tile a b c) := by
  rw [TriangleGround.make, show Res.assert (zero <=. (1 : ℝ)) "negative friction coefficient scaling factor detected." = .ok () by
    simp [Res.assert]]
  rfl

/-- The lower left half of a cell of the unit square, divided in `n` rows and columns. -/
noncomputable def lower (n i j : ℕ) : TriangleGround ℝ :=
  tile ⟨i / n, j / n, 0⟩ ⟨(i + 1) / n, j / n, 0⟩ ⟨i / n, (j + 1) / n, 0⟩
/-- The upper right half. -/
noncomputable def upper (n i j : ℕ) : TriangleGround ℝ :=
  tile ⟨(i + 1) / n, (j + 1) / n, 0⟩ ⟨i / n, (j + 1) / n, 0⟩ ⟨(i + 1) / n, j / n, 0⟩

/-- A level road, the unit square, as a mesh of `2 n ^ 2` triangles. -/
noncomputable def grid (n : ℕ) : List (TriangleGround ℝ) :=
  (List.range n).flatMap fun i => (List.range n).flatMap fun j => [lower n i j, upper n i j]

theorem mem_grid {n : ℕ} {t : TriangleGround ℝ} : t ∈ grid n ↔ ∃ i < n, ∃ j < n, t = lower n i j ∨ t = upper n i j := by
  simp [grid]

theorem on_grid {n : ℕ} (hn : 0 < n) (p : V3 ℝ) :
    OnMesh (grid n) p ↔ p.z = 0 ∧ (0 ≤ p.x ∧ p.x ≤ 1) ∧ 0 ≤ p.y ∧ p.y ≤ 1 := by
  have hn' : (0 : ℝ) < n := by exact_mod_cast hn
  constructor
  · rintro ⟨t, ht, a, b, c, ha, hb, hc, hs, rfl⟩
    obtain ⟨i, hi, j, hj, ht⟩ := mem_grid.1 ht
    have hi0 : (0 : ℝ) ≤ i / n := by positivity
    have hj0 : (0 : ℝ) ≤ j / n := by positivity
    have hi1 : (i + 1 : ℝ) / n ≤ 1 := by rw [div_le_one hn']; exact_mod_cast hi
    have hj1 : (j + 1 : ℝ) / n ≤ 1 := by rw [div_le_one hn']; exact_mod_cast hj
    have hi2 : (i : ℝ) / n ≤ (i + 1 : ℝ) / n := by gcongr; linarith
    have hj2 : (j : ℝ) / n ≤ (j + 1 : ℝ) / n := by gcongr; linarith
    have ha' : a = 1 - b - c := by linarith
    rcases ht with rfl | rfl
    · simp only [lower, tile, TriangleGround.updateBBox, TriangleGround.updateNormal]
      generalize (i : ℝ) / n = x0 at *
      generalize (j : ℝ) / n = y0 at *
      generalize (i + 1 : ℝ) / n = x1 at *
      generalize (j + 1 : ℝ) / n = y1 at *
      refine ⟨by ring, ⟨by nlinarith, by nlinarith⟩, by nlinarith, by nlinarith⟩
    · simp only [upper, tile, TriangleGround.updateBBox, TriangleGround.updateNormal]
      generalize (i : ℝ) / n = x0 at *
      generalize (j : ℝ) / n = y0 at *
      generalize (i + 1 : ℝ) / n = x1 at *
      generalize (j + 1 : ℝ) / n = y1 at *
      refine ⟨by ring, ⟨by nlinarith, by nlinarith⟩, by nlinarith, by nlinarith⟩
  · rintro ⟨hz, ⟨hx0, hx1⟩, hy0, hy1⟩
    have cell : ∀ x : ℝ, 0 ≤ x → x ≤ 1 → ∃ i : ℕ, i < n ∧ ∃ a : ℝ, 0 ≤ a ∧ a ≤ 1 ∧ x = (i + a) / n := by
      intro x h0 h1
      rcases h1.lt_or_eq with h1 | rfl
      · refine ⟨⌊x * n⌋₊, ?_, x * n - ⌊x * n⌋₊, ?_, ?_, ?_⟩
        · rw [Nat.floor_lt (by positivity)]; nlinarith
        · have := Nat.floor_le (a := x * n) (by positivity); linarith
        · have := Nat.lt_floor_add_one (x * n); linarith
        · field_simp; ring
      · refine ⟨n - 1, by omega, 1, by norm_num, le_rfl, ?_⟩
        rw [Nat.cast_sub (by omega)]; field_simp; simp
    obtain ⟨i, hi, a, ha0, ha1, hxa⟩ := cell p.x hx0 hx1
    obtain ⟨j, hj, b, hb0, hb1, hyb⟩ := cell p.y hy0 hy1
    rcases le_or_gt (a + b) 1 with h | h
    · refine ⟨lower n i j, mem_grid.2 ⟨i, hi, j, hj, Or.inl rfl⟩, 1 - a - b, a, b, by linarith, ha0, hb0, by ring, ?_⟩
      simp only [lower, tile, TriangleGround.updateBBox, TriangleGround.updateNormal]
      ext
      · rw [hxa]; dsimp only; field_simp; ring
      · rw [hyb]; dsimp only; field_simp; ring
      · rw [hz]; dsimp only; ring
    · refine ⟨upper n i j, mem_grid.2 ⟨i, hi, j, hj, Or.inr rfl⟩, a + b - 1, 1 - a, 1 - b, by linarith, by linarith, by linarith,
        by ring, ?_⟩
      simp only [upper, tile, TriangleGround.updateBBox, TriangleGround.updateNormal]
      ext
      · rw [hxa]; dsimp only; field_simp; ring
      · rw [hyb]; dsimp only; field_simp; ring
      · rw [hz]; dsimp only; ring

theorem grid_plan {n : ℕ} (hn : 0 < n) {t : TriangleGround ℝ} (ht : t ∈ grid n) : plan2 t.tri = 1 / n ^ 2 := by
  have hn' : (0 : ℝ) < n := by exact_mod_cast hn
  obtain ⟨i, hi, j, hj, ht⟩ := mem_grid.1 ht
  have key : ∀ x : ℝ, x = 1 / (n : ℝ) ^ 2 → |x| = 1 / (n : ℝ) ^ 2 := by
    rintro x rfl; exact abs_of_pos (by positivity)
  rcases ht with rfl | rfl
  · simp only [lower, tile, TriangleGround.updateBBox, TriangleGround.updateNormal, plan2]
    apply key; field_simp; ring
  · simp only [upper, tile, TriangleGround.updateBBox, TriangleGround.updateNormal, plan2]
    apply key; field_simp; ring

theorem grid_made {n : ℕ} {t : TriangleGround ℝ} (ht : t ∈ grid n) : ∃ a b c, TriangleGround.make 0 1 a b c = .ok t := by
  obtain ⟨i, -, j, -, rfl | rfl⟩ := mem_grid.1 ht
  · exact ⟨_, _, _, tile_make _ _ _⟩
  · exact ⟨_, _, _, tile_make _ _ _⟩

theorem grid_level {n : ℕ} (hn : 0 < n) : Gentle 0 (grid n) := by
  intro p q hp hq
  rw [((on_grid hn p).1 hp).1, ((on_grid hn q).1 hq).1]; simp

theorem grid_sized {n : ℕ} (hn : 0 < n) : Sized 1 (grid n) := by
  have hbox : ∀ p, OnMesh (grid n) p → ∀ q, OnMesh (grid n) q → |p.x - q.x| ≤ 1 ∧ |p.y - q.y| ≤ 1 := by
    intro p hp q hq
    obtain ⟨-, ⟨a, b⟩, c, d⟩ := (on_grid hn p).1 hp
    obtain ⟨-, ⟨a', b'⟩, c', d'⟩ := (on_grid hn q).1 hq
    constructor <;> rw [abs_le] <;> constructor <;> linarith
  intro t ht
  exact ⟨hbox _ ⟨t, ht, vertex1 _ _ _⟩ _ ⟨t, ht, vertex0 _ _ _⟩, hbox _ ⟨t, ht, vertex2 _ _ _⟩ _ ⟨t, ht, vertex0 _ _ _⟩⟩

/-- A mesh all of whose triangles are smaller than the tolerance is never found. -/
theorem unseen {ts : List (TriangleGround ℝ)} (h : ∀ t ∈ ts, plan2 t.tri < Scalar.eps) (o : V3 ℝ) :
    Rib.samplingLineMesh ts ⟨o, V3.neg V3.ez⟩ = none := by
  rw [(C28_highest_hit OrderOn.real ts _).1]
  intro t ht
  exact (C50_line_triangle_tolerance _ t.tri Scalar.eps real_eps_pos).1 (by rw [box_down]; exact h t ht)

noncomputable def rib : Rib ℝ := Rib.make 0 (1 / 2) 0 (1 / 10) 0
noncomputable def pose : Affine ℝ := ⟨⟨⟨1, 0, 0⟩, ⟨0, 1, 0⟩, ⟨0, 0, 1⟩⟩, ⟨1 / 2, 1 / 2, 1 / 4⟩⟩
noncomputable def floor : Flat ℝ := ⟨⟨⟨0, 0, 0⟩, ⟨0, 0, 1⟩⟩, 1⟩

theorem pose_rigid : IsRigid pose := by
  constructor <;> simp [pose, dot3]

theorem rib_isRib : IsRib rib := Rib.make_isRib 0 0 0 (by norm_num) (by norm_num)

/-- The wheel is 25 cm deep in the level road made of two triangles. -/
theorem standing : (rib.envelopSamplingMesh (grid 1) pose).1 = true ∧ (rib.envelopSamplingMesh (grid 1) pose).2.depth = 1 / 4 := by
  obtain ⟨a0, a1, a2, a3, -⟩ := Accurate.lines_exact rib_isRib.center pose
  have hup : Scalar.eps < floor.plane.normal.z := by simpa [floor] using real_eps_lt_one
  have hfl : rib.envelopSamplingMesh (grid 1) pose = rib.envelopSamplingFlat floor pose := by
    apply C107_plane_partial hup
    · intro p hp
      simp [OnPlane, dot3, minus, floor, ((on_grid one_pos p).1 hp).1]
    · intro t ht
      obtain ⟨i, -, j, -, rfl | rfl⟩ := mem_grid.1 ht <;> rfl
    · intro t ht
      rw [grid_plan one_pos ht]; simpa using real_eps_lt_one.le
    · intro l hl
      refine ⟨⟨l.origin.x, l.origin.y, 0⟩, (on_grid one_pos _).2 ?_, rfl, rfl⟩
      simp only [List.mem_cons, List.not_mem_nil, or_false] at hl
      rcases hl with rfl | rfl | rfl | rfl
      · rw [a0]; simp only [pose, rib, Rib.make, Rib.radius, Rib.y, Rib.width]; v3; norm_num
      · rw [a1]; simp only [pose, rib, Rib.make, Rib.radius, Rib.y, Rib.width]; v3; norm_num
      · rw [a2]; simp only [pose, rib, Rib.make, Rib.radius, Rib.y, Rib.width]; v3; norm_num
      · rw [a3]; simp only [pose, rib, Rib.make, Rib.radius, Rib.y, Rib.width]; v3; norm_num
  have hd : sunkDepth rib.radius rib.y pose floor.plane.origin floor.plane.normal = 1 / 4 := by
    simp only [sunkDepth, dist3, footAt, hub, dot3, floor, pose, rib, Rib.make, Rib.radius, Disk.radius]
    norm_num
    rw [show (16 : ℝ) = 4 ^ 2 by norm_num, Real.sqrt_sq (by norm_num)]; norm_num
  rw [hfl, Accurate.run_exact rib_isRib (by norm_num [rib, Rib.make]) pose_rigid (by norm_num [pose]) hup rfl rfl (by norm_num [floor]), hd]
  norm_num

end Road

/-- **C107, refuted.**  The unit square, a level road, as a mesh of two triangles and as a mesh of `2 ^ 29` triangles with legs of about
0.06 mm, all made by the constructor.  A wheel of radius 50 cm whose centre is 25 cm above the first is 25 cm deep in the road; in the second no rib finds the
road in any pose. -/
theorem C107_fine_refuted : ∃ ts ts' : List (TriangleGround ℝ), SameSurface ts ts' ∧ Gentle 0 ts ∧ Sized 1 ts ∧ Sized 1 ts' ∧
    (∀ t ∈ ts ++ ts', ∃ a b c, TriangleGround.make 0 1 a b c = .ok t) ∧
    (∃ (r : Rib ℝ) (P : Affine ℝ), IsRib r ∧ IsRigid P ∧ (r.envelopSamplingMesh ts P).1 = true ∧ (r.envelopSamplingMesh ts P).2.depth = 1 / 4) ∧
    ∀ (r : Rib ℝ) (P : Affine ℝ), r.envelopSamplingMesh ts' P = (false, r.noContact P) := by
  refine ⟨Road.grid 1, Road.grid (2 ^ 14), ?_, Road.grid_level one_pos, Road.grid_sized one_pos, Road.grid_sized (by positivity), ?_,
    ⟨Road.rib, Road.pose, Road.rib_isRib, Road.pose_rigid, Road.standing⟩, ?_⟩
  · intro p; rw [Road.on_grid one_pos, Road.on_grid (by positivity)]
  · intro t ht
    rcases List.mem_append.1 ht with h | h <;> exact Road.grid_made h
  · intro r P
    have h : ∀ o, Rib.samplingLineMesh (Road.grid (2 ^ 14)) ⟨o, V3.neg V3.ez⟩ = none := by
      apply Road.unseen
      intro t ht
      rw [Road.grid_plan (by positivity) ht, real_eps]; norm_num
    unfold Rib.envelopSamplingMesh Rib.envelopSampling
    rw [Rib.lineXp, h]

end Enve
