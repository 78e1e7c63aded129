import Verif.Base.Binary64
import Verif.Lemmas.Order
import Verif.Model.Rib
import Verif.Spec.Rib
import Verif.Lemmas.RibReal
import Verif.Lemmas.RealVec

/-! # Contacts in the arithmetic of `double` -/

namespace Enve
open Scalar Spec

/-- The order laws hold for all values of type `double` but NaN, so that the theorems that assume only them hold
for `double`. -/
theorem OrderOn.b64 : OrderOn (fun a : B64 => a.val ≠ .nan) where
  lt_eq := by
    rintro ⟨a⟩ ⟨b⟩ ha hb
    cases a <;> cases b <;> first | exact absurd rfl ha | exact absurd rfl hb | skip
    case fin.fin x y =>
      show decide (x < y) = !decide (y ≤ x)
      by_cases h : x < y <;> simp [h, not_le.mpr, not_lt.mp]
    all_goals rfl
  total := by
    rintro ⟨a⟩ ⟨b⟩ ha hb
    cases a <;> cases b <;> first | exact absurd rfl ha | exact absurd rfl hb | skip
    case fin.fin x y =>
      show decide (x ≤ y) = true ∨ decide (y ≤ x) = true
      simpa using le_total x y
    all_goals first | exact Or.inl rfl | exact Or.inr rfl
  trans := by
    rintro ⟨a⟩ ⟨b⟩ ⟨c⟩ ha hb hc h1 h2
    cases a <;> cases b <;> cases c <;> first | rfl | exact absurd rfl ha | exact absurd rfl hb | exact absurd rfl hc | exact absurd h1 Bool.false_ne_true | exact absurd h2 Bool.false_ne_true | skip
    case fin.fin.fin x y z =>
      exact decide_eq_true ((of_decide_eq_true h1).trans (of_decide_eq_true h2))

/-! ## Area and volume -/

section
variable {R w d : ℝ}

theorem B64.two_eq : (Scalar.two : B64) = .fin 2 := by
  show B64.round (lit 2 1 : XR) = _
  rw [XR.lit_eq]
  exact (B64.exact 1 1 (by norm_num) (by norm_num) (by norm_num) (by norm_num)).trans (by norm_num)

theorem B64.zero_eq : (Scalar.zero : B64) = .fin 0 := by
  show B64.round (lit 0 1 : XR) = _
  rw [XR.lit_eq]
  exact (B64.exact 0 0 (by norm_num) (by norm_num) (by norm_num) (by norm_num)).trans (by norm_num)

theorem B64.one_eq : (Scalar.one : B64) = .fin 1 := by
  show B64.round (lit 1 1 : XR) = _
  rw [XR.lit_eq]
  exact (B64.exact 1 0 (by norm_num) (by norm_num) (by norm_num) (by norm_num)).trans (by norm_num)

/-- **C95**: in the arithmetic of `double`, area and volume of a depth between zero and twice the radius are numbers,
and the area is not negative. -/
theorem C95_values_partial (hrR : B64.Rep R) (hrd : B64.Rep d) (hR : 0 < R) (hR' : R ≤ 2 ^ 200) (hw : 0 ≤ w)
    (hw' : w ≤ 2 ^ 200) (hd : 0 ≤ d) (hd' : d ≤ 2 * R) :
    (∃ a, Rib.depthArea (.fin R) (.fin w) (.fin d) = B64.fin a ∧ 0 ≤ a) ∧
    ∃ v, Rib.depthVolume (.fin R) (.fin w) (.fin d) = B64.fin v := by
  have p : ∀ {x : ℝ} {k : ℕ}, k ≤ 1000 → 0 ≤ x → x ≤ 2 ^ k →
      ∃ y, B64.round (.fin x) = .fin y ∧ 0 ≤ y ∧ y ≤ 2 ^ k := by
    intro x k hk h0 h1
    obtain ⟨y, e, _, h3, h4⟩ := B64.round_bounds hk (by rwa [abs_of_nonneg h0])
    exact ⟨y, e, h4 0 B64.rep_zero h0, h3 _ (B64.rep_pow k) h1⟩
  have q : ∀ {x : ℝ} {k : ℕ}, k ≤ 1000 → |x| ≤ 2 ^ k → ∃ y, B64.round (.fin x) = .fin y ∧ |y| ≤ 2 ^ k := by
    intro x k hk h1
    obtain ⟨y, e, h2, _, _⟩ := B64.round_bounds hk h1
    exact ⟨y, e, h2⟩
  have mono : ∀ {a b : ℕ}, a ≤ b → (2 : ℝ) ^ a ≤ 2 ^ b := fun h => pow_le_pow_right₀ (by norm_num) h
  have hmul : ∀ {x y : ℝ} {a b : ℕ}, |x| ≤ 2 ^ a → |y| ≤ 2 ^ b → |x * y| ≤ 2 ^ (a + b) := by
    intro x y a b h1 h2
    rw [abs_mul, pow_add]; exact mul_le_mul h1 h2 (abs_nonneg _) (by positivity)
  have hRabs : |R| ≤ 2 ^ 200 := by rwa [abs_of_pos hR]
  have hwabs : |w| ≤ 2 ^ 200 := by rwa [abs_of_nonneg hw]
  have e201 : (2 : ℝ) ^ 201 = 2 * 2 ^ 200 := by ring
  obtain ⟨y1, e1, h1, _, g1⟩ := B64.round_bounds (x := 2 * R) (k := 201) (by norm_num)
    (by rw [abs_of_nonneg (by positivity)]; linarith)
  have h1d : d ≤ y1 := g1 d hrd hd'
  have h1' := (le_abs_self _).trans h1
  obtain ⟨y2, e2, h2, h2'⟩ := p (x := y1 - d) (k := 201) (by norm_num) (by linarith) (by linarith)
  obtain ⟨y3, e3, h3, h3'⟩ := p (x := d * y2) (k := 402) (by norm_num) (by positivity) (by
    rw [show (402 : ℕ) = 201 + 201 from rfl, pow_add]
    exact mul_le_mul (by linarith) h2' h2 (by positivity))
  obtain ⟨y4, e4, h4, h4'⟩ := p (x := Real.sqrt y3) (k := 201) (by norm_num) (Real.sqrt_nonneg _) (by
    rw [Real.sqrt_le_left (by positivity)]
    calc y3 ≤ 2 ^ 402 := h3'
      _ = (2 ^ 201) ^ 2 := by rw [← pow_mul])
  have hroot : Scalar.sqrt (B64.fin d *. (Scalar.two *. B64.fin R -. B64.fin d)) = .fin y4 := by
    rw [B64.two_eq, B64.mul_fin, e1, B64.sub_fin, e2, B64.mul_fin, e3, B64.sqrt_fin h3, e4]
  constructor
  · obtain ⟨y5, e5, h5, h5'⟩ := p (x := 2 * y4) (k := 202) (by norm_num) (by positivity) (by
      rw [show (202 : ℕ) = 1 + 201 from rfl, pow_add]; linarith)
    obtain ⟨y6, e6, h6, -⟩ := p (x := y5 * w) (k := 402) (by norm_num) (by positivity) (by
      rw [show (402 : ℕ) = 202 + 200 from rfl, pow_add]
      exact mul_le_mul h5' hw' hw (by positivity))
    refine ⟨y6, ?_, h6⟩
    rw [Rib.depthArea, hroot, B64.two_eq, B64.mul_fin, e5, B64.mul_fin, e6]
  · obtain ⟨y5, e5, h5, b5, c5⟩ := B64.round_bounds (x := R - d) (k := 200) (by norm_num)
      (by rw [abs_le]; constructor <;> linarith)
    have h5a : |y5| ≤ R := abs_le.2 ⟨c5 _ hrR.neg (by linarith), b5 _ hrR (by linarith)⟩
    have h5q : |y5 / R| ≤ 1 := by rw [abs_div, abs_of_pos hR, div_le_one hR]; exact h5a
    obtain ⟨y6, e6, h6⟩ := q (x := y5 / R) (k := 0) (by norm_num) (by simpa using h5q)
    rw [pow_zero, abs_le] at h6
    obtain ⟨y7, e7, h7, h7'⟩ := p (x := Real.arccos y6) (k := 2) (by norm_num) (Real.arccos_nonneg _)
      ((Real.arccos_le_pi _).trans (by linarith [Real.pi_le_four]))
    obtain ⟨y8, e8, h8⟩ := q (x := R * R) (k := 400) (by norm_num) (hmul hRabs hRabs)
    obtain ⟨y9, e9, h9⟩ := q (x := y8 * y7) (k := 402) (by norm_num) (hmul h8 (by rwa [abs_of_nonneg h7]))
    obtain ⟨y10, e10, h10⟩ := q (x := y5 * y4) (k := 401) (by norm_num) (hmul h5 (by rwa [abs_of_nonneg h4]))
    have h10' := h10.trans (mono (show 401 ≤ 402 by norm_num))
    obtain ⟨y11, e11, h11⟩ := q (x := y9 - y10) (k := 403) (by norm_num) (by
      rw [show (2 : ℝ) ^ 403 = 2 ^ 402 + 2 ^ 402 by rw [← two_mul, ← pow_succ']]
      exact (abs_sub _ _).trans (add_le_add h9 h10'))
    obtain ⟨y12, e12, -⟩ := q (x := y11 * w) (k := 603) (by norm_num) (hmul h11 hwabs)
    refine ⟨y12, ?_⟩
    have hac : Scalar.acos (B64.fin y6) = .fin y7 := by
      show B64.round (Scalar.acos (XR.fin y6)) = _
      have : Scalar.acos (XR.fin y6) = XR.fin (Real.arccos y6) := by
        show (if _ then _ else _) = _
        rw [if_pos h6]
      rw [this, e7]
    rw [Rib.depthVolume, hroot, B64.sub_fin, e5, B64.div_fin _ hR.ne', e6, hac, B64.mul_fin, e8, B64.mul_fin, e9,
      B64.mul_fin, e10, B64.sub_fin, e11, B64.mul_fin, e12]

end

theorem B64.round_def (x : ℝ) : B64.round (.fin x) = ⟨if (2 : ℝ) ^ (1024 : ℤ) ≤ B64.near x then .pinf
    else if B64.near x ≤ -(2 : ℝ) ^ (1024 : ℤ) then .ninf else .fin (B64.near x)⟩ := rfl

/-- What a rounded operation returns. -/
theorem B64.round_cases (a : XR) :
    (∃ y, B64.round a = .fin y ∧ B64.Rep y) ∨ B64.round a = ⟨.pinf⟩ ∨ B64.round a = ⟨.ninf⟩ ∨ B64.round a = ⟨.nan⟩ := by
  cases a with
  | fin x =>
    rw [B64.round_def]
    split_ifs
    · exact Or.inr (Or.inl rfl)
    · exact Or.inr (Or.inr (Or.inl rfl))
    · exact Or.inl ⟨_, rfl, B64.rep_near x⟩
  | pinf => exact Or.inr (Or.inl rfl)
  | ninf => exact Or.inr (Or.inr (Or.inl rfl))
  | nan => exact Or.inr (Or.inr (Or.inr rfl))

theorem B64.sqrt_cases (a : B64) :
    (∃ y, Scalar.sqrt a = B64.fin y ∧ 0 ≤ y) ∨ Scalar.sqrt a = ⟨.pinf⟩ ∨ Scalar.sqrt a = (⟨.nan⟩ : B64) := by
  obtain ⟨a⟩ := a
  cases a with
  | fin x =>
    by_cases h : 0 ≤ x
    · have h1 : Scalar.sqrt (B64.mk (.fin x)) = B64.round (.fin (Real.sqrt x)) := B64.sqrt_fin h
      rw [h1]
      have h2 := B64.near_neg_le B64.rep_zero (Real.sqrt_nonneg x)
      rw [B64.round_def]
      split_ifs with h3 h4
      · exact Or.inr (Or.inl rfl)
      · exact absurd h4 (not_le.2 (lt_of_lt_of_le (neg_neg_of_pos (by positivity)) h2))
      · exact Or.inl ⟨_, rfl, h2⟩
    · refine Or.inr (Or.inr ?_)
      show B64.round (if _ then _ else _) = _
      rw [if_neg h]; rfl
  | pinf => exact Or.inr (Or.inl rfl)
  | ninf => exact Or.inr (Or.inr rfl)
  | nan => exact Or.inr (Or.inr rfl)

/-- The difference of a number and a length is at most the number. -/
theorem B64.sub_norm_cases {R : ℝ} (hR : B64.Rep R) (hR' : R < 2 ^ (1024 : ℤ)) (v : V3 B64) (h : (Scalar.zero <=. (B64.fin R -. V3.norm v)) = true) :
    ∃ d, B64.fin R -. V3.norm v = .fin d ∧ B64.Rep d ∧ 0 ≤ d ∧ d ≤ R := by
  rw [B64.zero_eq] at h
  unfold V3.norm at h ⊢
  rcases B64.sqrt_cases (V3.sqNorm v) with ⟨y, e, hy⟩ | e | e
  · rw [e] at h ⊢
    rw [B64.sub_fin] at h ⊢
    have hle : B64.near (R - y) ≤ R := B64.near_le hR (by linarith)
    rw [B64.round_def] at h ⊢
    split_ifs at h ⊢ with h1 h2
    · linarith
    · exact absurd h Bool.false_ne_true
    · exact ⟨_, rfl, B64.rep_near _, of_decide_eq_true h, hle⟩
  · rw [e] at h; exact absurd h Bool.false_ne_true
  · rw [e] at h; exact absurd h Bool.false_ne_true

/-- A rib whose radius and width are ordinary numbers. -/
structure Spec.PlainRib (r : Rib B64) (R w : ℝ) : Prop where
  radius : r.radius = .fin R
  width : r.width = .fin w
  rep : B64.Rep R
  pos : 0 < R
  le : R ≤ 2 ^ 200
  width_nonneg : 0 ≤ w
  width_le : w ≤ 2 ^ 200

/-- Depth, area and volume are numbers, depth and area are not negative. -/
structure Spec.NumberContact (out : Output B64) : Prop where
  depth : ∃ d, out.depth = .fin d ∧ 0 ≤ d
  area : ∃ a, out.area = .fin a ∧ 0 ≤ a
  volume : ∃ v, out.volume = .fin v

/-- **C95**: in the arithmetic of `double`, whatever the ground and the pose, a contact of the geometric method on flat
ground whose depth is not negative has number values. -/
theorem C95_geometric_partial {r : Rib B64} {R w : ℝ} (hr : PlainRib r R w) (g : Flat B64) (pose : Affine B64)
    (hc : (r.envelopGeometricFlat g pose).1 = true)
    (hd : (Scalar.zero <=. (r.envelopGeometricFlat g pose).2.depth) = true) :
    NumberContact (r.envelopGeometricFlat g pose).2 := by
  have hlt : R < 2 ^ (1024 : ℤ) := hr.le.trans_lt (by
    rw [← zpow_natCast]; exact zpow_lt_zpow_right₀ (by norm_num) (by norm_num))
  revert hc hd
  unfold Rib.envelopGeometricFlat
  split
  · intro h; exact absurd h Bool.false_ne_true
  · split_ifs
    · intro _ hd
      dsimp only at hd ⊢
      rw [hr.radius] at hd
      obtain ⟨d, e, hrd, h0, h1⟩ := B64.sub_norm_cases hr.rep hlt _ hd
      have hv := C95_values_partial hr.rep hrd hr.pos hr.le hr.width_nonneg hr.width_le h0
        (by linarith [hr.pos])
      refine ⟨⟨d, by simp only [hr.radius, e], h0⟩, ?_, ?_⟩
      · simpa only [hr.radius, hr.width, e] using hv.1
      · simpa only [hr.radius, hr.width, e] using hv.2
    · simp

/-- **C95**: in the arithmetic of `double`, whatever the ground and the pose, a contact of the sampling method whose
depth is at most the diameter has number values. -/
theorem C95_sampling_partial {r : Rib B64} {R w : ℝ} (hr : PlainRib r R w)
    (sample : Line B64 → Option (V3 B64 × B64)) (pose : Affine B64)
    (hc : (r.envelopSampling sample pose).1 = true)
    (hd : ((r.envelopSampling sample pose).2.depth <=. .fin (2 * R)) = true) :
    NumberContact (r.envelopSampling sample pose).2 := by
  have key : ∀ (A N : B64) (o : Output B64), (Scalar.zero <. A -. N) = true → o.depth = A -. N →
      o.area = Rib.depthArea r.radius r.width (A -. N) → o.volume = Rib.depthVolume r.radius r.width (A -. N) →
      (o.depth <=. .fin (2 * R)) = true → NumberContact o := by
    intro A N o hz e1 e2 e3 hd
    rw [B64.zero_eq] at hz
    rw [e1] at hd
    rcases B64.round_cases (A.val -. N.val) with ⟨d, e, hrd⟩ | e | e | e <;>
      replace e : A -. N = _ := e <;> rw [e] at hz hd e1 e2 e3
    · have h0 : 0 < d := of_decide_eq_true hz
      have hv := C95_values_partial hr.rep hrd hr.pos hr.le hr.width_nonneg hr.width_le h0.le (of_decide_eq_true hd)
      refine ⟨⟨d, e1, h0.le⟩, ?_, ?_⟩
      · rw [e2, hr.radius, hr.width]; exact hv.1
      · rw [e3, hr.radius, hr.width]; exact hv.2
    · exact absurd hd Bool.false_ne_true
    · exact absurd hz Bool.false_ne_true
    · exact absurd hz Bool.false_ne_true
  revert hc hd
  unfold Rib.envelopSampling
  split
  · dsimp only
    split_ifs with hz
    · intro _ hd
      exact key _ _ _ hz rfl rfl rfl hd
    · simp
  · simp

/-! ## A wheel above the ground, far from the origin -/

namespace Far

/-- A vector of doubles. -/
def vec (x y z : ℝ) : V3 B64 := ⟨.fin x, .fin y, .fin z⟩
/-- A rib of radius 1235/4096 (30 cm) and width one. -/
noncomputable def rib : Rib B64 := ⟨⟨.fin (1235 / 4096), ⟨vec 0 0 0, vec 0 1 0⟩⟩, 0, .fin 0, .fin 1, .fin 0⟩
/-- The plane of all points of height zero. -/
noncomputable def ground : Flat B64 := ⟨⟨vec 0 0 0, vec 0 0 1⟩, .fin 1⟩
/-- The upright wheel with its centre at `x = 2 ^ 22` and the height 1241/4096. -/
noncomputable def pose : Affine B64 := ⟨⟨vec 1 0 0, vec 0 1 0, vec 0 0 1⟩, vec 4194304 0 (1241 / 4096)⟩

theorem z0 : B64.round (.fin 0) = .fin 0 := B64.exact 0 0 (by norm_num) (by norm_num) (by norm_num) (by norm_num)
theorem z1 : B64.round (.fin 1) = .fin 1 := B64.exact 1 0 (by norm_num) (by norm_num) (by norm_num) (by norm_num)
theorem zm1 : B64.round (.fin (-1)) = .fin (-1) :=
  B64.exact (-1) 0 (by norm_num) (by norm_num) (by norm_num) (by norm_num)
theorem zX : B64.round (.fin 4194304) = .fin 4194304 :=
  B64.exact 4194304 0 (by norm_num) (by norm_num) (by norm_num) (by norm_num)
theorem zmX : B64.round (.fin (-4194304)) = .fin (-4194304) :=
  B64.exact (-4194304) 0 (by norm_num) (by norm_num) (by norm_num) (by norm_num)
theorem zh : B64.round (.fin (1241 / 4096)) = .fin (1241 / 4096) :=
  B64.exact 1241 (-12) (by norm_num) (by norm_num) (by norm_num) (by norm_num)
theorem zmh : B64.round (.fin (-(1241 / 4096))) = .fin (-(1241 / 4096)) :=
  B64.exact (-1241) (-12) (by norm_num) (by norm_num) (by norm_num) (by norm_num)
theorem zX2 : B64.round (.fin 17592186044416) = .fin 17592186044416 :=
  B64.exact 17592186044416 0 (by norm_num) (by norm_num) (by norm_num) (by norm_num)
theorem zh2 : B64.round (.fin (1540081 / 16777216)) = .fin (1540081 / 16777216) :=
  B64.exact 1540081 (-24) (by norm_num) (by norm_num) (by norm_num) (by norm_num)
theorem zR2 : B64.round (.fin (1525225 / 16777216)) = .fin (1525225 / 16777216) :=
  B64.exact 1525225 (-24) (by norm_num) (by norm_num) (by norm_num) (by norm_num)

theorem center : rib.centerGrd pose = vec 4194304 0 (1241 / 4096) := by
  norm_num [Rib.centerGrd, rib, pose, vec, Rib.center, Disk.center, V3.add, M3.mulVec, z0, z1, zX, zh]

theorem normal : rib.normalGrd pose = vec 0 1 0 := by
  norm_num [Rib.normalGrd, rib, pose, vec, Disk.normal, V3.add, M3.mulVec, z0, z1, zX, zh]

theorem sqrt1 : Scalar.sqrt (B64.fin 1) = .fin 1 := by
  rw [B64.sqrt_fin (by norm_num), Real.sqrt_one, z1]

theorem neg_fin (x : ℝ) : -. (B64.fin x) = .fin (-x) := rfl

theorem line : Inter.planePlane ground.plane (rib.diskGrd pose).layingPlane Scalar.eps =
    some ⟨vec 0 0 0, vec (-1) 0 0⟩ := by
  have hn : V3.normalized (vec 0 0 1) = vec 0 0 1 := by
    norm_num [V3.normalized, V3.sqNorm, V3.dot, V3.sdiv, vec, z0, z1, B64.zero_eq, sqrt1, B64.div_fin]
  have hm : V3.normalized (vec 0 1 0) = vec 0 1 0 := by
    norm_num [V3.normalized, V3.sqNorm, V3.dot, V3.sdiv, vec, z0, z1, B64.zero_eq, sqrt1, B64.div_fin]
  rw [Inter.planePlane, Disk.layingPlane, Rib.diskGrd, center, normal, ground]
  dsimp only
  rw [hn, hm]
  have hd : V3.cross (vec 0 0 1) (vec 0 1 0) = vec (-1) 0 0 := by
    norm_num [V3.cross, vec, z0, z1, zm1]
  have hdot : V3.dot (vec 0 0 1) (vec 0 1 0) = .fin 0 := by norm_num [V3.dot, vec, z0]
  have hnn : V3.norm (vec (-1) 0 0) = .fin 1 := by norm_num [V3.norm, V3.sqNorm, V3.dot, vec, z0, z1, sqrt1]
  have hd0 : Plane.d (⟨vec 0 0 0, vec 0 0 1⟩ : Plane B64) = .fin 0 := by
    norm_num [Plane.d, V3.dot, vec, z0, neg_fin]
  have hd1 : Plane.d (⟨vec 4194304 0 (1241 / 4096), vec 0 1 0⟩ : Plane B64) = .fin 0 := by
    norm_num [Plane.d, V3.dot, vec, z0, neg_fin]
  have heps : (Scalar.eps : B64) = .fin Scalar.eps := rfl
  have happ : Scalar.isApprox (B64.fin 1 *. B64.fin 1) Scalar.zero Scalar.eps = false := by
    have h : ¬ |(1 : ℝ)| < Scalar.eps := by rw [abs_one]; exact not_lt.2 real_eps_lt_one.le
    rw [Scalar.isApprox, B64.mul_fin, mul_one, z1, B64.zero_eq, B64.sub_fin, sub_zero, z1]
    show (Scalar.abs (XR.fin 1) <. XR.fin Scalar.eps) = false
    rw [XR.abs_fin]; exact decide_eq_false h
  rw [hd, hdot, hnn, hd0, hd1, happ]
  simp only [Bool.false_eq_true, if_false, B64.one_eq]
  norm_num [neg_fin, z0, z1, B64.div_fin, V3.add, V3.smul, vec]

theorem eps_eq : (Scalar.eps : B64) = .fin Scalar.eps := rfl
theorem abs_fin (x : ℝ) : Scalar.abs (B64.fin x) = .fin |x| := by
  show B64.mk (Scalar.abs (XR.fin x)) = _; rw [XR.abs_fin]; rfl

/-- The square of the distance from the origin of the line swallows part of the square of the height ... -/
theorem sum : B64.round (.fin (17592186044416 + 1540081 / 16777216)) = .fin (17592186044416 + 23 / 256) :=
  B64.round_eq 44 4503599627370519 (by norm_num) (by norm_num) (by norm_num)
    (by rw [abs_of_pos (by norm_num)]; norm_num) (by rw [abs_of_pos (by norm_num)]; norm_num)
    (by rw [abs_lt]; constructor <;> norm_num)

/-- ... so that the square of the radius seems larger. -/
theorem diff : B64.round (.fin (17592186044416 + 23 / 256 - 1525225 / 16777216)) = .fin (17592186044416 - 1 / 512) :=
  B64.round_eq 43 9007199254740991 (by norm_num) (by norm_num) (by norm_num)
    (by rw [abs_of_pos (by norm_num)]; norm_num) (by rw [abs_of_pos (by norm_num)]; norm_num)
    (by rw [abs_lt]; constructor <;> norm_num)

theorem disc : B64.round (.fin (17592186044416 - (17592186044416 - 1 / 512))) = .fin (1 / 512) := by
  rw [show (17592186044416 - (17592186044416 - 1 / 512) : ℝ) = 1 / 512 by norm_num]
  exact B64.exact 1 (-9) (by norm_num) (by norm_num) (by norm_num) (by norm_num)

theorem exact_a0 : B64.round (.fin (17592186044416 - 1 / 512)) = .fin (17592186044416 - 1 / 512) :=
  B64.exact 9007199254740991 (-9) (by norm_num) (by norm_num) (by norm_num) (by norm_num)

theorem root : Scalar.sqrt (B64.fin (1 / 512)) = .fin (6369051672525773 / 144115188075855872) := by
  have lo : 6369051672525773 / 144115188075855872 - 1 / 288230376151711744 < Real.sqrt (1 / 512) := by
    apply Real.lt_sqrt_of_sq_lt; norm_num
  have hi : Real.sqrt (1 / 512) < 6369051672525773 / 144115188075855872 + 1 / 288230376151711744 := by
    rw [Real.sqrt_lt' (by norm_num)]; norm_num
  rw [B64.sqrt_fin (by norm_num)]
  refine B64.round_eq (-5) 6369051672525773 (by norm_num) (by norm_num) (by norm_num) ?_ ?_ ?_
  · rw [abs_of_pos (by linarith)]; norm_num at lo ⊢; linarith
  · rw [abs_of_pos (by linarith)]; norm_num at hi ⊢; linarith
  · rw [abs_lt]; norm_num at lo hi ⊢; constructor <;> linarith

theorem t0 : B64.round (.fin (4194304 + 6369051672525773 / 144115188075855872)) = .fin (4503599674823629 / 1073741824) :=
  B64.round_eq 22 4503599674823629 (by norm_num) (by norm_num) (by norm_num)
    (by rw [abs_of_pos (by norm_num)]; norm_num) (by rw [abs_of_pos (by norm_num)]; norm_num)
    (by rw [abs_lt]; constructor <;> norm_num)

theorem t1 : B64.round (.fin (4194304 - 6369051672525773 / 144115188075855872)) = .fin (4503599579917363 / 1073741824) :=
  B64.round_eq 21 9007199159834726 (by norm_num) (by norm_num) (by norm_num)
    (by rw [abs_of_pos (by norm_num)]; norm_num) (by rw [abs_of_pos (by norm_num)]; norm_num)
    (by rw [abs_lt]; constructor <;> norm_num)

theorem et0 : B64.round (.fin (4503599674823629 / 1073741824)) = .fin (4503599674823629 / 1073741824) :=
  B64.exact 4503599674823629 (-30) (by norm_num) (by norm_num) (by norm_num) (by norm_num)
theorem emt0 : B64.round (.fin (-(4503599674823629 / 1073741824))) = .fin (-(4503599674823629 / 1073741824)) :=
  B64.exact (-4503599674823629) (-30) (by norm_num) (by norm_num) (by norm_num) (by norm_num)
theorem et1 : B64.round (.fin (4503599579917363 / 1073741824)) = .fin (4503599579917363 / 1073741824) :=
  B64.exact 4503599579917363 (-30) (by norm_num) (by norm_num) (by norm_num) (by norm_num)
theorem emt1 : B64.round (.fin (-(4503599579917363 / 1073741824))) = .fin (-(4503599579917363 / 1073741824)) :=
  B64.exact (-4503599579917363) (-30) (by norm_num) (by norm_num) (by norm_num) (by norm_num)

/-- The points where the ground seems to cut the rib. -/
theorem segment : Inter.planeDisk ground.plane (rib.diskGrd pose) Scalar.eps =
    some ⟨vec (4503599674823629 / 1073741824) 0 0, vec (4503599579917363 / 1073741824) 0 0⟩ := by
  have heps : (Scalar.eps : ℝ) < 1 / 512 := by rw [real_eps]; norm_num
  have hpos := real_eps_pos
  rw [Inter.planeDisk, line]
  dsimp only
  rw [Inter.lineDisk, Disk.center, Rib.diskGrd, center]
  dsimp only
  have h1 : V3.sub (vec 0 0 0) (vec 4194304 0 (1241 / 4096)) = vec (-4194304) 0 (-(1241 / 4096)) := by
    norm_num [V3.sub, vec, z0, zmX, zmh]
  have h2 : V3.dot (vec (-1) 0 0) (vec (-1) 0 0) = .fin 1 := by norm_num [V3.dot, vec, z0, z1]
  have h3 : V3.dot (vec (-4194304) 0 (-(1241 / 4096))) (vec (-1) 0 0) = .fin 4194304 := by
    norm_num [V3.dot, vec, z0, zX]
  have h4 : V3.dot (vec (-4194304) 0 (-(1241 / 4096))) (vec (-4194304) 0 (-(1241 / 4096))) =
      .fin (17592186044416 + 23 / 256) := by
    rw [V3.dot, vec]
    simp only [B64.mul_fin]
    rw [show (-4194304 : ℝ) * -4194304 = 17592186044416 by norm_num,
      show -(1241 / 4096 : ℝ) * -(1241 / 4096) = 1540081 / 16777216 by norm_num, zX2, zh2, mul_zero, z0, B64.add_fin,
      add_zero, zX2, B64.add_fin, sum]
  have h5 : rib.radius *. rib.radius = .fin (1525225 / 16777216) := by
    show B64.fin (1235 / 4096) *. B64.fin (1235 / 4096) = _
    rw [B64.mul_fin, show (1235 / 4096 : ℝ) * (1235 / 4096) = 1525225 / 16777216 by norm_num, zR2]
  have h6 : B64.fin 4194304 *. B64.fin 4194304 = .fin 17592186044416 := by
    rw [B64.mul_fin, show (4194304 : ℝ) * 4194304 = 17592186044416 by norm_num, zX2]
  have h7 : B64.fin 1 /. B64.fin 1 = .fin 1 := by rw [B64.div_fin _ (by norm_num), div_one, z1]
  rw [h1, h2, h3, h4, h5, B64.sub_fin, diff, h6, B64.mul_fin, mul_one, exact_a0, B64.sub_fin, disc, eps_eq, neg_fin,
    B64.lt_fin, if_neg (by simp; linarith), abs_fin, B64.lt_fin,
    if_neg (by rw [abs_of_pos (by norm_num)]; simp; linarith), root, B64.one_eq, h7, B64.add_fin, t0, B64.sub_fin, t1,
    B64.mul_fin, mul_one, et0, B64.mul_fin, mul_one, et1]
  norm_num [V3.sub, V3.smul, vec, et0, et1, emt0, emt1, z0]

theorem length : (Scalar.eps <. Segment.length (⟨vec (4503599674823629 / 1073741824) 0 0,
    vec (4503599579917363 / 1073741824) 0 0⟩ : Segment B64)) = true := by
  have h1 : B64.round (.fin (47453133 / 536870912)) = .fin (47453133 / 536870912) :=
    B64.exact 47453133 (-29) (by norm_num) (by norm_num) (by norm_num) (by norm_num)
  have h2 : B64.round (.fin (2251799831515689 / 288230376151711744)) = .fin (2251799831515689 / 288230376151711744) :=
    B64.exact 2251799831515689 (-58) (by norm_num) (by norm_num) (by norm_num) (by norm_num)
  have h3 : Scalar.sqrt (B64.fin (2251799831515689 / 288230376151711744)) = .fin (47453133 / 536870912) := by
    rw [B64.sqrt_fin (by norm_num), show (2251799831515689 / 288230376151711744 : ℝ) = (47453133 / 536870912) ^ 2 by
      norm_num, Real.sqrt_sq (by norm_num), h1]
  have h : Segment.length (⟨vec (4503599674823629 / 1073741824) 0 0,
      vec (4503599579917363 / 1073741824) 0 0⟩ : Segment B64) = .fin (47453133 / 536870912) := by
    norm_num [Segment.length, V3.norm, V3.sqNorm, V3.dot, V3.sub, vec, z0, h1, h2, h3]
  rw [h, eps_eq, B64.lt_fin, real_eps]
  norm_num

theorem centroid : Segment.centroid (⟨vec (4503599674823629 / 1073741824) 0 0,
    vec (4503599579917363 / 1073741824) 0 0⟩ : Segment B64) = vec 4194304 0 0 := by
  have h1 : B64.round (.fin 8388608) = .fin 8388608 :=
    B64.exact 8388608 0 (by norm_num) (by norm_num) (by norm_num) (by norm_num)
  norm_num [Segment.centroid, V3.sdiv, V3.add, vec, B64.two_eq, z0, h1, B64.div_fin, zX]

theorem depth : rib.radius -. V3.norm (V3.sub (vec 4194304 0 0) (rib.centerGrd pose)) = .fin (-(3 / 2048)) := by
  have h1 : Scalar.sqrt (B64.fin (1540081 / 16777216)) = .fin (1241 / 4096) := by
    rw [B64.sqrt_fin (by norm_num), show (1540081 / 16777216 : ℝ) = (1241 / 4096) ^ 2 by norm_num,
      Real.sqrt_sq (by norm_num), zh]
  have h2 : B64.round (.fin (-(3 / 2048))) = .fin (-(3 / 2048)) :=
    B64.exact (-3) (-11) (by norm_num) (by norm_num) (by norm_num) (by norm_num)
  rw [center]
  norm_num [rib, Rib.radius, V3.norm, V3.sqNorm, V3.dot, V3.sub, vec, z0, zmh, zh2, h1, h2]

/-- The same rib, ground and pose with exact numbers. -/
noncomputable def ribR : Rib ℝ := ⟨⟨1235 / 4096, ⟨⟨0, 0, 0⟩, ⟨0, 1, 0⟩⟩⟩, 0, 0, 1, 0⟩
/-- The ground. -/
noncomputable def groundR : Flat ℝ := ⟨⟨⟨0, 0, 0⟩, ⟨0, 0, 1⟩⟩, 1⟩
/-- The pose. -/
noncomputable def poseR : Affine ℝ := ⟨⟨⟨1, 0, 0⟩, ⟨0, 1, 0⟩, ⟨0, 0, 1⟩⟩, ⟨4194304, 0, 1241 / 4096⟩⟩

theorem exact_no_contact : (ribR.envelopGeometricFlat groundR poseR).1 = false := by
  have hn : V3.normalized (⟨0, 0, 1⟩ : V3 ℝ) = ⟨0, 0, 1⟩ := V3.normalized_unit (by norm_num)
  have hm : V3.normalized (⟨0, 1, 0⟩ : V3 ℝ) = ⟨0, 1, 0⟩ := V3.normalized_unit (by norm_num)
  have hc : ribR.centerGrd poseR = ⟨4194304, 0, 1241 / 4096⟩ := by
    norm_num [Rib.centerGrd, ribR, poseR, Rib.center, Disk.center, V3.add, M3.mulVec]
  have hg : ribR.normalGrd poseR = ⟨0, 1, 0⟩ := by
    norm_num [Rib.normalGrd, ribR, poseR, Disk.normal, V3.add, M3.mulVec]
  have hl : Inter.planePlane groundR.plane (ribR.diskGrd poseR).layingPlane Scalar.eps =
      some ⟨⟨0, 0, 0⟩, ⟨-1, 0, 0⟩⟩ := by
    have h1 : ¬ (1 : ℝ) < Scalar.eps := not_lt.2 real_eps_lt_one.le
    rw [Inter.planePlane, Disk.layingPlane, Rib.diskGrd, hc, hg, groundR]
    dsimp only
    rw [hn, hm]
    norm_num [V3.cross, V3.dot, V3.norm, V3.sqNorm, Plane.d, V3.add, V3.smul, Scalar.isApprox, h1]
  have hs : Inter.planeDisk groundR.plane (ribR.diskGrd poseR) Scalar.eps = none := by
    have heps : (Scalar.eps : ℝ) < 1 / 4096 := by rw [real_eps]; norm_num
    rw [Inter.planeDisk, hl]
    dsimp only
    rw [Inter.lineDisk, Disk.center, Rib.diskGrd, hc]
    dsimp only
    rw [if_pos]
    norm_num [V3.sub, V3.dot, ribR, Rib.radius]
    linarith
  rw [Rib.envelopGeometricFlat, hs]

end Far

/-- **C95**, what fails: in the arithmetic of `double`, the geometric method reports a contact of an upright wheel with
a flat ground of height zero although its lowest point is 1.46 mm above the ground, when the wheel is 4194304 m
away from the origin; the depth is negative, area and volume are NaN.  With exact numbers there is no contact. -/
theorem C95_far_refuted :
    PlainRib Far.rib (1235 / 4096) 1 ∧
    (Far.rib.envelopGeometricFlat Far.ground Far.pose).1 = true ∧
    (Far.rib.envelopGeometricFlat Far.ground Far.pose).2.depth = .fin (-(3 / 2048)) ∧
    (Far.rib.envelopGeometricFlat Far.ground Far.pose).2.area = ⟨.nan⟩ ∧
    (Far.rib.envelopGeometricFlat Far.ground Far.pose).2.volume = ⟨.nan⟩ ∧
    (Far.ribR.envelopGeometricFlat Far.groundR Far.poseR).1 = false := by
  refine ⟨⟨rfl, rfl, ⟨1235, -12, by norm_num, by norm_num, by norm_num⟩, by norm_num, by norm_num, by norm_num,
    by norm_num⟩, ?_⟩
  have hn : ∀ a : B64, a -. (⟨.nan⟩ : B64) = ⟨.nan⟩ := fun a => by
    show B64.round (a.val -. XR.nan) = _; rw [XR.sub_nan]; rfl
  have hm : ∀ a : B64, a *. (⟨.nan⟩ : B64) = ⟨.nan⟩ := fun a => by
    show B64.round (a.val *. XR.nan) = _; rw [XR.mul_nan]; rfl
  have hm' : ∀ a : B64, (⟨.nan⟩ : B64) *. a = ⟨.nan⟩ := fun a => by
    show B64.round (XR.nan *. a.val) = _; rw [XR.nan_mul]; rfl
  have h1 : B64.round (.fin (1235 / 2048)) = .fin (1235 / 2048) :=
    B64.exact 1235 (-11) (by norm_num) (by norm_num) (by norm_num) (by norm_num)
  have h2 : B64.round (.fin (619 / 1024)) = .fin (619 / 1024) :=
    B64.exact 619 (-10) (by norm_num) (by norm_num) (by norm_num) (by norm_num)
  have h3 : B64.round (.fin (-(1857 / 2097152))) = .fin (-(1857 / 2097152)) :=
    B64.exact (-1857) (-21) (by norm_num) (by norm_num) (by norm_num) (by norm_num)
  have h4 : Scalar.sqrt (B64.fin (-(1857 / 2097152))) = ⟨.nan⟩ := by
    show B64.round (if _ then _ else _) = _
    rw [if_neg (by norm_num)]; rfl
  have hroot : Scalar.sqrt (B64.fin (-(3 / 2048)) *. (Scalar.two *. Far.rib.radius -. .fin (-(3 / 2048)))) = ⟨.nan⟩ := by
    norm_num [B64.two_eq, Rib.radius, Far.rib, h1, h2, h3, h4]
  rw [Rib.envelopGeometricFlat, Far.segment]
  dsimp only
  rw [if_pos Far.length, Far.centroid]
  dsimp only
  rw [Far.depth]
  refine ⟨rfl, rfl, ?_, ?_, Far.exact_no_contact⟩
  · rw [Rib.depthArea, hroot, hm, hm']
  · rw [Rib.depthVolume, hroot, hm, hn, hm']

/-! ## A contact at the origin -/

namespace AtOrigin

/-- A rib of radius 5/16. -/
noncomputable def rib : Rib B64 := ⟨⟨.fin (5 / 16), ⟨Far.vec 0 0 0, Far.vec 0 1 0⟩⟩, 0, .fin 0, .fin 1, .fin 0⟩
/-- The upright wheel with its centre at the height 1/4. -/
noncomputable def pose : Affine B64 := ⟨⟨Far.vec 1 0 0, Far.vec 0 1 0, Far.vec 0 0 1⟩, Far.vec 0 0 (1 / 4)⟩

/-- The hypotheses of `C95_geometric_partial` hold for a wheel 1/16 deep in the ground. -/
theorem contact : PlainRib rib (5 / 16) 1 ∧ (rib.envelopGeometricFlat Far.ground pose).1 = true ∧
    (rib.envelopGeometricFlat Far.ground pose).2.depth = .fin (1 / 16) := by
  refine ⟨⟨rfl, rfl, ⟨5, -4, by norm_num, by norm_num, by norm_num⟩, by norm_num, by norm_num, by norm_num,
    by norm_num⟩, ?_⟩
  have z0 := Far.z0
  have z1 := Far.z1
  have zm1 := Far.zm1
  have e1 : B64.round (.fin (1 / 4)) = .fin (1 / 4) :=
    B64.exact 1 (-2) (by norm_num) (by norm_num) (by norm_num) (by norm_num)
  have e2 : B64.round (.fin (-(1 / 4))) = .fin (-(1 / 4)) :=
    B64.exact (-1) (-2) (by norm_num) (by norm_num) (by norm_num) (by norm_num)
  have e3 : B64.round (.fin (1 / 16)) = .fin (1 / 16) :=
    B64.exact 1 (-4) (by norm_num) (by norm_num) (by norm_num) (by norm_num)
  have e4 : B64.round (.fin (25 / 256)) = .fin (25 / 256) :=
    B64.exact 25 (-8) (by norm_num) (by norm_num) (by norm_num) (by norm_num)
  have e5 : B64.round (.fin (-(9 / 256))) = .fin (-(9 / 256)) :=
    B64.exact (-9) (-8) (by norm_num) (by norm_num) (by norm_num) (by norm_num)
  have e6 : B64.round (.fin (9 / 256)) = .fin (9 / 256) :=
    B64.exact 9 (-8) (by norm_num) (by norm_num) (by norm_num) (by norm_num)
  have e7 : B64.round (.fin (3 / 16)) = .fin (3 / 16) :=
    B64.exact 3 (-4) (by norm_num) (by norm_num) (by norm_num) (by norm_num)
  have e8 : B64.round (.fin (-(3 / 16))) = .fin (-(3 / 16)) :=
    B64.exact (-3) (-4) (by norm_num) (by norm_num) (by norm_num) (by norm_num)
  have e9 : B64.round (.fin (3 / 8)) = .fin (3 / 8) :=
    B64.exact 3 (-3) (by norm_num) (by norm_num) (by norm_num) (by norm_num)
  have e10 : B64.round (.fin (9 / 64)) = .fin (9 / 64) :=
    B64.exact 9 (-6) (by norm_num) (by norm_num) (by norm_num) (by norm_num)
  have s1 : Scalar.sqrt (B64.fin (9 / 256)) = .fin (3 / 16) := by
    rw [B64.sqrt_fin (by norm_num), show (9 / 256 : ℝ) = (3 / 16) ^ 2 by norm_num, Real.sqrt_sq (by norm_num), e7]
  have s2 : Scalar.sqrt (B64.fin (9 / 64)) = .fin (3 / 8) := by
    rw [B64.sqrt_fin (by norm_num), show (9 / 64 : ℝ) = (3 / 8) ^ 2 by norm_num, Real.sqrt_sq (by norm_num), e9]
  have s3 : Scalar.sqrt (B64.fin (1 / 16)) = .fin (1 / 4) := by
    rw [B64.sqrt_fin (by norm_num), show (1 / 16 : ℝ) = (1 / 4) ^ 2 by norm_num, Real.sqrt_sq (by norm_num), e1]
  have hc : rib.centerGrd pose = Far.vec 0 0 (1 / 4) := by
    norm_num [Rib.centerGrd, rib, pose, Far.vec, Rib.center, Disk.center, V3.add, M3.mulVec, z0, z1, e1]
  have hg : rib.normalGrd pose = Far.vec 0 1 0 := by
    norm_num [Rib.normalGrd, rib, pose, Far.vec, Disk.normal, V3.add, M3.mulVec, z0, z1, e1]
  have hn : V3.normalized (Far.vec 0 0 1) = Far.vec 0 0 1 := by
    norm_num [V3.normalized, V3.sqNorm, V3.dot, V3.sdiv, Far.vec, z0, z1, B64.zero_eq, Far.sqrt1, B64.div_fin]
  have hm : V3.normalized (Far.vec 0 1 0) = Far.vec 0 1 0 := by
    norm_num [V3.normalized, V3.sqNorm, V3.dot, V3.sdiv, Far.vec, z0, z1, B64.zero_eq, Far.sqrt1, B64.div_fin]
  have hl : Inter.planePlane Far.ground.plane (rib.diskGrd pose).layingPlane Scalar.eps =
      some ⟨Far.vec 0 0 0, Far.vec (-1) 0 0⟩ := by
    have h : ¬ (1 : ℝ) < Scalar.eps := not_lt.2 real_eps_lt_one.le
    rw [Inter.planePlane, Disk.layingPlane, Rib.diskGrd, hc, hg, Far.ground]
    dsimp only
    rw [hn, hm]
    norm_num [V3.cross, V3.dot, V3.norm, V3.sqNorm, Plane.d, V3.add, V3.smul, Scalar.isApprox, Far.vec, z0, z1, zm1,
      Far.neg_fin, Far.sqrt1, B64.zero_eq, B64.one_eq, Far.abs_fin, Far.eps_eq, h, B64.div_fin, e1]
  have hs : Inter.planeDisk Far.ground.plane (rib.diskGrd pose) Scalar.eps =
      some ⟨Far.vec (3 / 16) 0 0, Far.vec (-(3 / 16)) 0 0⟩ := by
    have h1 : ¬ (9 / 256 : ℝ) < Scalar.eps := by rw [real_eps]; norm_num
    have h2 : ¬ (9 / 256 : ℝ) < -Scalar.eps := by rw [real_eps]; norm_num
    rw [Inter.planeDisk, hl]
    dsimp only
    rw [Inter.lineDisk, Disk.center, Rib.diskGrd, hc]
    norm_num [V3.sub, V3.dot, Far.vec, V3.smul, z0, z1, zm1, e1, e2, e3, e4, e5, e6, e7, e8, rib, Rib.radius, s1,
      Far.neg_fin, Far.abs_fin, Far.eps_eq, B64.one_eq, B64.div_fin, h1, h2]
  have hlen : (Scalar.eps <. Segment.length (⟨Far.vec (3 / 16) 0 0, Far.vec (-(3 / 16)) 0 0⟩ : Segment B64)) = true := by
    have h1 : (Scalar.eps : ℝ) < 3 / 8 := by rw [real_eps]; norm_num
    norm_num [Segment.length, V3.norm, V3.sqNorm, V3.dot, V3.sub, Far.vec, z0, e9, e10, s2, Far.eps_eq, h1]
  have hcen : Segment.centroid (⟨Far.vec (3 / 16) 0 0, Far.vec (-(3 / 16)) 0 0⟩ : Segment B64) = Far.vec 0 0 0 := by
    norm_num [Segment.centroid, V3.sdiv, V3.add, Far.vec, B64.two_eq, z0, B64.div_fin]
  have hd : rib.radius -. V3.norm (V3.sub (Far.vec 0 0 0) (rib.centerGrd pose)) = .fin (1 / 16) := by
    rw [hc]
    norm_num [rib, Rib.radius, V3.norm, V3.sqNorm, V3.dot, V3.sub, Far.vec, z0, e2, e3, s3]
  rw [Rib.envelopGeometricFlat, hs]
  dsimp only
  rw [if_pos hlen, hcen]
  dsimp only
  exact ⟨rfl, hd⟩

example : NumberContact (rib.envelopGeometricFlat Far.ground pose).2 :=
  C95_geometric_partial contact.1 _ _ contact.2.1 (by rw [contact.2.2, B64.zero_eq]; exact decide_eq_true (by norm_num))

end AtOrigin

end Enve
