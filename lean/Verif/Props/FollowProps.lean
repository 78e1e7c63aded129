import Verif.Props.TerrainProps

/-! # The contact volume follows the terrain: C132 -/

namespace Enve
open Scalar Spec MeasureTheory

/-! ## One rib -/

/-- Raising the road does not reduce the part of the disk below it. -/
theorem Terrain.area_mono {R : ℝ} {road road' : ℝ → ℝ} (hR : 0 ≤ R) (h : ∀ x, -R ≤ x → x ≤ R → road x ≤ road' x) :
    areaBelow R road ≤ areaBelow R road' := by
  refine ENNReal.toReal_mono (Terrain.below_finite hR road') (measure_mono ?_)
  rintro ⟨x, z⟩ ⟨h1, h2⟩
  dsimp only at h1 h2
  have hx := abs_lt.1 (abs_lt_of_sq_lt_sq (a := x) (b := R) (by nlinarith [sq_nonneg z]) hR)
  exact ⟨h1, h2.trans_le (h x hx.1.le hx.2.le)⟩

/-- The volume reported for a rib is at most the exact one. -/
theorem Terrain.rib_le {r : Rib ℝ} (hr : IsRib r) (hw : 0 < r.width) (hrad : Scalar.eps ≤ r.radius) {pose : Affine ℝ} (hp : IsRigid pose)
    {road : ℝ → ℝ} (hc : Continuous road) (hlow : ∀ x, -r.radius ≤ x → x ≤ r.radius → road x < 0) {ts : List (TriangleGround ℝ)}
    (h : RoadOf pose r road ts) {b : Bool} {out : Output ℝ} (he : r.envelopGeometricMesh ts pose = .ok (b, out)) :
    out.volume ≤ r.width * areaBelow r.radius road := by
  obtain ⟨k, x, T, others, h0, hn, hT, hts, ho⟩ := h
  obtain ⟨b', out', h1, -, h3, -⟩ := C122_volume_partial hr hw hrad hp hc hlow h0 hn
    (fun i hi => ⟨(hT i hi).1, (hT i hi).2.1, (hT i hi).2.2.1⟩) hts ho
  have e := Prod.mk.inj (Res.ok.inj (he.symm.trans h1))
  obtain ⟨rfl, rfl⟩ := e
  cases b with
  | true => exact (h3 rfl fun i hi => (hT i hi).2.2.2).le
  | false =>
    rw [Rib.geometricMesh_false he]
    exact mul_nonneg hw.le ENNReal.toReal_nonneg

/-! ## The whole tyre -/

/-- The wheel at `pose` stands on a mesh which the plane of every rib `r` cuts in the road `road r`, below the centre of the rib. -/
structure Spec.StandsOn (s : Shell ℝ) (pose : Affine ℝ) (m : Mesh ℝ) (road : Rib ℝ → ℝ → ℝ) : Prop where
  rigid : IsRigid pose
  built : BuiltMesh m
  radius : ∀ r ∈ s.ribs, Scalar.eps ≤ r.radius
  cont : ∀ r ∈ s.ribs, Continuous (road r)
  low : ∀ r ∈ s.ribs, ∀ x, -r.radius ≤ x → x ≤ r.radius → road r x < 0
  cut : ∀ r ∈ s.ribs, RoadOf pose r (road r) m.triangles

/-- A tyre in use: its ribs have a width and are inside the sphere of the radius of the tyre around the hub. -/
structure Spec.TyreInUse (pol : Policy) (s : Shell ℝ) : Prop where
  reach : s.Reachable pol
  rx : 0 ≤ s.shape.rx
  width : ∀ r ∈ s.ribs, 0 < r.width
  inside : ∀ r ∈ s.ribs, r.radius ^ 2 + r.center.y ^ 2 ≤ s.shape.rx ^ 2

/-- The volumes a setup leaves in the records. -/
theorem Terrain.records {pol : Policy} {s s' : Shell ℝ} (hu : TyreInUse pol s) {pose : Affine ℝ} {m : Mesh ℝ} {road : Rib ℝ → ℝ → ℝ}
    (h : StandsOn s pose m road) {b : Bool} (hs : s.setupMesh pol m pose "geometric" = .ok s' b) :
    ∃ recs : Nat → Output ℝ, s'.contactVolume pol = .ok (∑ i ∈ Finset.range s.size, (recs i).volume) ∧
      ∀ (i : Nat) r, s.ribs[i]? = some r → (recs i).volume ≤ r.width * areaBelow r.radius (road r) ∧
        r.width * areaBelow r.radius (road r) ≤ (recs i).volume + Scalar.eps := by
  have hev := fun r hr => Terrain.rib (hu.reach.isRib r hr) (hu.width r hr) (h.radius r hr) h.rigid (h.cont r hr) (h.low r hr) (h.cut r hr)
  obtain ⟨k1, -⟩ := C61_search_geometric_partial pol s s' hu.reach hu.rx m h.built pose h.rigid hu.inside
    (fun t ht r hr => (hev r hr).1 t ht) (fun t ht r hr => (hev r hr).2.1 t ht) b hs
  have hrel := Shell.setupMesh_rel (.inl ⟨b, hs⟩)
  have hrec : ∀ i : Nat, ∃ o, ∀ r, s.ribs[i]? = some r → s'.out.read pol i = .ok o ∧ o.volume ≤ r.width * areaBelow r.radius (road r) ∧
      r.width * areaBelow r.radius (road r) ≤ o.volume + Scalar.eps := by
    intro i
    cases e0 : s.ribs[i]? with
    | none => exact ⟨⟨V3.nan, V3.nan, 0, 0, 0, 0⟩, fun r hr => by cases hr⟩
    | some r =>
      have hmem := List.mem_of_getElem? e0
      obtain ⟨flag, o, e, e'⟩ := k1 i r (by rw [hrel.ribs]; exact e0)
      refine ⟨o, fun r' hr' => ?_⟩
      cases hr'
      refine ⟨e', Terrain.rib_le (hu.reach.isRib r hmem) (hu.width r hmem) (h.radius r hmem) h.rigid (h.cont r hmem) (h.low r hmem)
        (h.cut r hmem) e, ?_⟩
      obtain ⟨-, -, b', o', e2, h2, -⟩ := hev r hmem
      have : o = o' := (Prod.mk.inj (Res.ok.inj (e.symm.trans e2))).2
      subst this
      linarith [(abs_le.1 h2).1]
  choose recs hrecs using hrec
  have hsize : s'.size = s.size := by rw [Shell.size, hrel.ribs]; rfl
  have hrep : Reports pol s' recs := by
    rw [Shell.reports_iff, hsize]
    intro i hi
    exact (hrecs i _ (List.getElem?_eq_getElem hi)).1
  refine ⟨recs, ?_, fun i r hr => (hrecs i r hr).2⟩
  rw [C42_total_real hrep, hsize]

/-- **C132 (partial).**  Two setups of the same tyre with the geometric method, on two meshes, or at two poses: each time the plane of every
rib cuts the triangles in a road below the centre of the rib (`RoadOf`).
* If no road is lower in the second setup, the contact volume is not less, up to `eps` for every rib.
* If no road differs by more than `δ`, the contact volumes differ by at most `δ` times the sum of the diameters times the widths of the ribs,
  and `eps` for every rib.
The `eps` is the volume below which a rib reports no contact. -/
theorem C132_volume_partial {pol : Policy} {s₁ s₂ s₁' s₂' : Shell ℝ} (hu₁ : TyreInUse pol s₁) (hu₂ : TyreInUse pol s₂)
    (hsame : s₂.ribs = s₁.ribs) {pose₁ pose₂ : Affine ℝ} {m₁ m₂ : Mesh ℝ} {road₁ road₂ : Rib ℝ → ℝ → ℝ}
    (h₁ : StandsOn s₁ pose₁ m₁ road₁) (h₂ : StandsOn s₂ pose₂ m₂ road₂) {b₁ b₂ : Bool}
    (hs₁ : s₁.setupMesh pol m₁ pose₁ "geometric" = .ok s₁' b₁) (hs₂ : s₂.setupMesh pol m₂ pose₂ "geometric" = .ok s₂' b₂) :
    ∃ v₁ v₂, s₁'.contactVolume pol = .ok v₁ ∧ s₂'.contactVolume pol = .ok v₂ ∧
      ((∀ r ∈ s₁.ribs, ∀ x, |x| ≤ r.radius → road₁ r x ≤ road₂ r x) → v₁ ≤ v₂ + s₁.ribs.length * Scalar.eps) ∧
      (∀ δ, (∀ r ∈ s₁.ribs, ∀ x, |x| ≤ r.radius → |road₁ r x - road₂ r x| ≤ δ) →
        |v₁ - v₂| ≤ δ * (s₁.ribs.map fun r => 2 * r.radius * r.width).sum + s₁.ribs.length * Scalar.eps) := by
  obtain ⟨o₁, e₁, g₁⟩ := Terrain.records hu₁ h₁ hs₁
  obtain ⟨o₂, e₂, g₂⟩ := Terrain.records hu₂ h₂ hs₂
  rw [show s₂.size = s₁.ribs.length by rw [Shell.size, hsame]] at e₂
  rw [show s₁.size = s₁.ribs.length from rfl] at e₁
  rw [hsame] at g₂
  have hin : ∀ {R x : ℝ}, -R ≤ x → x ≤ R → |x| ≤ R := fun a b => abs_le.2 ⟨a, b⟩
  refine ⟨_, _, e₁, e₂, fun hle => ?_, fun δ hδ => ?_⟩
  · have hone : ∀ i ∈ Finset.range s₁.ribs.length, (o₁ i).volume ≤ (o₂ i).volume + Scalar.eps := by
      intro i hi
      obtain ⟨r, hi'⟩ : ∃ r, s₁.ribs[i]? = some r := ⟨_, List.getElem?_eq_getElem (Finset.mem_range.1 hi)⟩
      have hmem := List.mem_of_getElem? hi'
      have ha := Terrain.area_mono (R := r.radius) (road := road₁ r) (road' := road₂ r) (hu₁.reach.isRib _ hmem).radius_pos.le (fun x a b => hle _ hmem x (hin a b))
      have := mul_le_mul_of_nonneg_left ha (hu₁.width _ hmem).le
      have c1 := (g₁ i _ hi').1
      have c2 := (g₂ i _ hi').2
      linarith
    refine (Finset.sum_le_sum hone).trans_eq ?_
    rw [Finset.sum_add_distrib, Finset.sum_const, Finset.card_range, nsmul_eq_mul]
  · have hone : ∀ i ∈ Finset.range s₁.ribs.length, |(o₁ i).volume - (o₂ i).volume| ≤
        δ * (s₁.ribs.map fun r => 2 * r.radius * r.width).getD i 0 + Scalar.eps := by
      intro i hi
      obtain ⟨r, hi'⟩ : ∃ r, s₁.ribs[i]? = some r := ⟨_, List.getElem?_eq_getElem (Finset.mem_range.1 hi)⟩
      have hmem := List.mem_of_getElem? hi'
      have ha := Terrain.area_lip (R := r.radius) (road := road₁ r) (road' := road₂ r) (hu₁.reach.isRib _ hmem).radius_pos.le (h₁.low _ hmem) (h₂.low _ (by rw [hsame]; exact hmem))
        (h₁.cont _ hmem) (h₂.cont _ (by rw [hsame]; exact hmem)) (fun x a b => hδ _ hmem x (hin a b))
      have hw := (hu₁.width _ hmem).le
      obtain ⟨a1, a2⟩ := abs_le.1 ha
      have b1 := mul_le_mul_of_nonneg_left a1 hw
      have b2 := mul_le_mul_of_nonneg_left a2 hw
      rw [List.getD_eq_getElem?_getD, List.getElem?_map, hi']
      simp only [Option.map_some, Option.getD_some]
      have c1 := g₁ i _ hi'
      have c2 := g₂ i _ hi'
      rw [abs_le]
      constructor <;> linarith [c1.1, c1.2, c2.1, c2.2]
    rw [← Finset.sum_sub_distrib]
    refine (Finset.abs_sum_le_sum_abs _ _).trans ((Finset.sum_le_sum hone).trans_eq ?_)
    rw [Finset.sum_add_distrib, Finset.sum_const, Finset.card_range, nsmul_eq_mul, ← Finset.mul_sum]
    congr 2
    rw [← Fin.sum_univ_eq_sum_range (fun i => (s₁.ribs.map fun r => 2 * r.radius * r.width).getD i 0), ← List.sum_ofFn]
    congr 1
    refine List.ext_getElem (by simp) fun i hi hi' => ?_
    simp

/-! ### An example -/

/-- A rib at `y = c` of a wheel `h` above the field: the field is the road `z = -h`. -/
theorem Demo.field_road_at {r : Rib ℝ} {c h : ℝ} (hh : 1 / 4 ≤ h) (hh2 : h ≤ 1 / 2) (hc : r.center = ⟨0, c, 0⟩) (hc' : |c| ≤ 1) (hR : r.radius ≤ 1) (hR' : 3 / 4 ≤ r.radius ^ 2)
    (hR0 : 0 < r.radius) : RoadOf (Demo.upright h) r (fun _ => -h) [Demo.field] := by
  have heps := real_eps_pos
  have heps' := real_eps_le_half
  have hc1 := (abs_le.1 hc').1
  have hc2 := (abs_le.1 hc').2
  have hside : ∀ p : V3 ℝ, side (Demo.upright h) r p = p.y - c := by
    intro p
    simp only [side, dot3, minus, ribCentre, hc, Demo.upright]
    v3
    ring
  have hpt : ∀ x z : ℝ, ribPoint (Demo.upright h) r x z = ⟨x, c, h + z⟩ := by
    intro x z
    simp only [ribPoint, hc, Demo.upright, Affine.apply]
    v3
    congr 1 <;> ring
  have hf : Demo.field.tri = ⟨⟨0, 10, 0⟩, ⟨-30, -10, 0⟩, ⟨30, -10, 0⟩⟩ := rfl
  obtain ⟨l, hl⟩ : ∃ l : ℝ, l = 15 - 3 / 2 * c := ⟨_, rfl⟩
  refine ⟨1, fun i => if i = 0 then -l else l, fun _ => Demo.field, [], ?_, ?_, ?_, by simp, by simp⟩
  · beta_reduce; rw [if_pos rfl]; linarith
  · beta_reduce; rw [if_neg (by norm_num)]; linarith
  · intro i hi
    have : i = 0 := by omega
    subst this
    beta_reduce
    rw [if_pos rfl, if_neg (by norm_num)]
    have hdist : ∀ A B : V3 ℝ, dist3 A B ^ 2 ≤ 1600 → (Scalar.eps : ℝ) * dist3 A B ≤ 20 := by
      intro A B hd
      have h40 : dist3 A B ≤ 40 := by
        refine le_of_sq_le_sq ?_ (by norm_num)
        linarith
      nlinarith [dist3_nonneg A B]
    refine ⟨⟨by linarith, fun X => ?_⟩, ⟨?_, ?_, .inl ⟨?_, ?_, ?_, ?_, ?_, ?_⟩⟩, ⟨.inl ?_, fun _ => ⟨?_, -(1 / 2), 1 / 2, by linarith, by norm_num,
      by linarith, by nlinarith, by nlinarith, ?_⟩⟩, fun _ => ?_⟩
    · rw [hf, hside]
      constructor
      · rintro ⟨⟨a, b, d, ha, hb, hd, hsum, rfl⟩, hy⟩
        dsimp only at hy ⊢
        refine ⟨30 * (d - b), by linarith, by linarith, ?_⟩
        rw [hpt]
        congr 1 <;> linarith
      · rintro ⟨x, h1, h2, rfl⟩
        rw [hpt]
        refine ⟨⟨(10 + c) / 20, ((10 - c) / 20 - x / 30) / 2, ((10 - c) / 20 + x / 30) / 2, by linarith, by linarith, by linarith, by ring, ?_⟩, ?_⟩
        · dsimp only
          congr 1 <;> ring
        · dsimp only; ring
    · rw [hf, V3.real_cross]; norm_num [minus]
    · have hn : Demo.field.tri.normal.y = 0 := by
        rw [hf]
        unfold Triangle.normal
        have hne : V3.cross (V3.sub (⟨-30, -10, 0⟩ : V3 ℝ) ⟨0, 10, 0⟩) (V3.sub ⟨30, -10, 0⟩ ⟨0, 10, 0⟩) ≠ ⟨0, 0, 0⟩ := by
          v3; norm_num
        rw [V3.normalized_of_ne hne]; v3; simp
      simp only [sinSq, dot3, Demo.upright, hn]
      have := real_eps_lt_one
      simpa using this.le
    all_goals try simp only [hside, hf]
    · nlinarith
    · nlinarith
    · refine (hdist _ _ ?_).trans ?_
      · rw [dist3_sq]; norm_num
      · rw [show (10 - c - (-10 - c) : ℝ) = 20 by ring]; norm_num
    · refine (hdist _ _ ?_).trans ?_
      · rw [dist3_sq]; norm_num
      · rw [show (10 - c - (-10 - c) : ℝ) = 20 by ring]; norm_num
    · rw [sub_self, abs_zero, mul_zero, abs_pos]; intro h; linarith
    · rw [sub_self, abs_zero, mul_zero, abs_pos]; intro h; linarith
    · have h14 : 14 ≤ l - -l := by linarith
      have e : r.radius ^ 2 * ((l - -l) ^ 2 + (-h - -h) ^ 2) - (-l * -h - l * -h) ^ 2 =
          (l - -l) ^ 2 * (r.radius ^ 2 - h ^ 2) := by ring
      have hq : 1 / 2 ≤ r.radius ^ 2 - h ^ 2 := by nlinarith
      rw [e]
      nlinarith
    · have : -l * -h - l * -h = 2 * l * h := by ring
      rw [this]; have : 0 < l := by linarith
      positivity
    · rw [show ((1 / 2 : ℝ) - -(1 / 2)) ^ 2 + (-h - -h) ^ 2 = 1 by ring, Real.sqrt_one]; linarith
    · unfold Overhead; nlinarith
/-- The hypotheses of `C132_volume_partial` are met by spherical tyres of 1 to 200 ribs whose hub is `h` and `h'` above the field: lowering
the hub by `d` adds at most `2 d` to the contact volume, up to `eps` for every rib, and does not reduce it. -/
example (fresh : Nat → Output ℝ) (n : Nat) (hn : 1 ≤ n) (hn' : n ≤ 200) (h h' : ℝ) (h1 : 1 / 4 ≤ h') (h2 : h' ≤ h) (h3 : h ≤ 1 / 2) :
    ∃ (s s₁ s₂ : Shell ℝ) (b₁ b₂ : Bool) (v₁ v₂ : ℝ), Shell.make fresh n 1 2 1 2 (1 / 2) = .ok s ∧
    s.setupMesh .raw (Mesh.ofTriangles [Demo.field]) (Demo.upright h) "geometric" = .ok s₁ b₁ ∧
    s₁.setupMesh .raw (Mesh.ofTriangles [Demo.field]) (Demo.upright h') "geometric" = .ok s₂ b₂ ∧
    s₁.contactVolume .raw = .ok v₁ ∧ s₂.contactVolume .raw = .ok v₂ ∧
    v₁ ≤ v₂ + n * Scalar.eps ∧ |v₁ - v₂| ≤ (h - h') * 2 + n * Scalar.eps := by
  have hv : ValidProfile (1 : ℝ) 2 1 2 (1 / 2) :=
    ⟨by norm_num, by norm_num, by norm_num, by norm_num, by norm_num, by norm_num⟩
  have heps := real_eps_le_half
  obtain ⟨s, e1, e2, -, e3, hrb, -⟩ := C04_construct fresh n hn 1 2 1 2 (1 / 2) hv
  have hn0 : (0 : ℝ) < n := by exact_mod_cast hn
  have hreach : s.Reachable .raw := .make e1
  have hall : ∀ r ∈ s.ribs, ∃ c, r.center = ⟨0, c, 0⟩ ∧ |c| ≤ 1 / 2 ∧ 0 < r.radius ∧ r.radius ^ 2 = 1 - c ^ 2 ∧ r.width = 1 / n := by
    intro r hr
    obtain ⟨i, hi, e⟩ := List.mem_iff_getElem.1 hr
    have hin : i < n := by have : s.ribs.length = n := e2; omega
    have hr1 : s.ribs[i]? = some r := by rw [List.getElem?_eq_getElem hi, e]
    obtain ⟨ρ, hρ0, hc, hw, hrad, hon⟩ := hrb i hin
    have hy : |-(1 / 2) + (2 * (i : ℝ) + 1) * (1 / 2) / n| ≤ 1 / 2 := (Shell.real_centre_abs (by norm_num) hin).le
    refine ⟨-(1 / 2) + (2 * (i : ℝ) + 1) * (1 / 2) / n, ?_, hy, ?_, ?_, ?_⟩
    · rw [Shell.ribCenter, Shell.ribAt, hr1] at hc; exact Res.ok.inj hc
    · rw [Shell.ribRadius, Shell.ribAt, hr1] at hrad; rw [show r.radius = ρ from Res.ok.inj hrad]; exact hρ0
    · rw [Shell.ribRadius, Shell.ribAt, hr1] at hrad; rw [show r.radius = ρ from Res.ok.inj hrad, (radAt_profile hv hy ρ).1 hon]
      generalize -(1 / 2) + (2 * (i : ℝ) + 1) * (1 / 2) / n = y at hy ⊢
      have hs : y ^ 2 ≤ 1 := by rw [← sq_abs]; nlinarith [abs_nonneg y]
      unfold radAt
      rw [one_mul, div_one, Real.rpow_two, sq_abs, ← Real.sqrt_eq_rpow, Real.sq_sqrt (by linarith)]
    · rw [Shell.ribWidth, Shell.ribAt, hr1] at hw; rw [show r.width = _ from Res.ok.inj hw]; norm_num
  have hstand : ∀ t : Shell ℝ, t.ribs = s.ribs → ∀ k : ℝ, 1 / 4 ≤ k → k ≤ 1 / 2 →
      StandsOn t (Demo.upright k) (Mesh.ofTriangles [Demo.field]) fun _ _ => -k := by
    intro t ht k k1 k2
    refine ⟨Demo.upright_rigid k, Demo.field_built, fun r hr => ?_, fun r hr => by fun_prop, fun r hr x _ _ => by linarith, fun r hr => ?_⟩
    all_goals
      rw [ht] at hr
      obtain ⟨c, f1, f2, f3, f4, -⟩ := hall r hr
      have hc2 : c ^ 2 ≤ 1 / 4 := by rw [← sq_abs]; nlinarith [abs_nonneg c]
    · nlinarith
    · exact Demo.field_road_at k1 k2 f1 (by linarith) (by nlinarith [sq_nonneg c]) (by linarith) f3
  have huse : ∀ t : Shell ℝ, t.Reachable .raw → t.ribs = s.ribs → t.shape = s.shape → TyreInUse .raw t := by
    intro t hr ht hsh
    refine ⟨hr, by rw [hsh, e3]; norm_num, fun r hr => ?_, fun r hr => ?_⟩
    all_goals
      rw [ht] at hr
      obtain ⟨c, f1, f2, f3, f4, f5⟩ := hall r hr
    · rw [f5]; positivity
    · rw [f1, f4, hsh, e3]; norm_num
  have hset : ∀ t : Shell ℝ, t.Reachable .raw → t.ribs = s.ribs → ∀ k : ℝ, 1 / 4 ≤ k → k ≤ 1 / 2 →
      ∃ t' b, t.setupMesh .raw (Mesh.ofTriangles [Demo.field]) (Demo.upright k) "geometric" = .ok t' b := by
    intro t hr ht k k1 k2
    refine C37_setup_partial t hr (by rw [Shell.size, ht]; have : s.ribs.length = n := e2; omega) _ Demo.field_built _ (Demo.upright_rigid k)
      (fun t' ht' _ r hr => ?_)
    obtain ⟨j, x, T, others, -, -, hT, hts, ho⟩ := (hstand t ht k k1 k2).cut r hr
    rcases List.mem_append.1 (hts.mem_iff.1 ht') with h | h
    · obtain ⟨i, hi, rfl⟩ := List.mem_map.1 h
      exact (hT i (List.mem_range.1 hi)).2.1.clear
    · exact (ho t' h).clear
  obtain ⟨s₁, b₁, g1⟩ := hset s hreach rfl h (h1.trans h2) h3
  have rel₁ := Shell.setupMesh_rel (.inl ⟨b₁, g1⟩)
  have hreach₁ : s₁.Reachable .raw := .setupMesh hreach (.inl g1)
  obtain ⟨s₂, b₂, g2⟩ := hset s₁ hreach₁ rel₁.ribs h' h1 (h2.trans h3)
  obtain ⟨v₁, v₂, c1, c2, c3, c4⟩ := C132_volume_partial (huse s hreach rfl rfl) (huse s₁ hreach₁ rel₁.ribs rel₁.shape) rel₁.ribs
    (hstand s rfl h (h1.trans h2) h3) (hstand s₁ rel₁.ribs h' h1 (h2.trans h3)) g1 g2
  have hlen : (s.ribs.length : ℝ) = n := by exact_mod_cast (show s.ribs.length = n from e2)
  rw [hlen] at c3 c4
  refine ⟨s, s₁, s₂, b₁, b₂, v₁, v₂, e1, g1, g2, c1, c2, c3 fun _ _ _ _ => by linarith, ?_⟩
  refine (c4 (h - h') fun _ _ _ _ => ?_).trans ?_
  · rw [show -h - -h' = -(h - h') by ring, abs_neg, abs_of_nonneg (by linarith)]
  · have hsum : (s.ribs.map fun r => 2 * r.radius * r.width).sum ≤ (s.ribs.map fun _ => 2 / (n : ℝ)).sum := by
      refine List.sum_le_sum fun r hr => ?_
      obtain ⟨c, -, -, f3, f4, f5⟩ := hall r hr
      have hr1 : r.radius ≤ 1 := by nlinarith [sq_nonneg c]
      rw [f5, show 2 / (n : ℝ) = 2 * 1 * (1 / n) by ring]
      exact mul_le_mul_of_nonneg_right (by linarith) (by positivity)
    rw [List.map_const', List.sum_replicate, nsmul_eq_mul, hlen, mul_div_cancel₀ _ hn0.ne'] at hsum
    have := mul_le_mul_of_nonneg_left hsum (show 0 ≤ h - h' by linarith)
    linarith

end Enve
