import Verif.Base.Special
import Mathlib.Data.Int.Log
import Mathlib.Algebra.Order.Floor.Ring

/-! # Arithmetic of the type `double`

`real` is `double` (`acme.hh:81`).  A number is a real number, an infinity or NaN; every operation rounds the exact
result to the nearest number with 53 significant bits (ties to even), to a multiple of `2 ^ -1074` close to zero,
and to an infinity from `2 ^ 1024` on, as IEEE 754 prescribes for the arithmetic operations and `sqrt`.
Simplifications: one zero only, which counts as `+0` when it is divided by; `sin`, `cos`, `acos`, `atan`, `atan2`
and `pow` are rounded correctly too, which a C library need not do. -/

namespace Enve
open Scalar

/-- A value of type `double`. -/
structure B64 where
  /-- The number it stands for. -/
  val : XR

namespace B64

/-- The closest integer; the even one of two. -/
noncomputable def nearestEven (q : ℝ) : ℤ :=
  if Int.fract q < 1 / 2 then ⌊q⌋ else if 1 / 2 < Int.fract q then ⌊q⌋ + 1
  else if ⌊q⌋ % 2 = 0 then ⌊q⌋ else ⌊q⌋ + 1

/-- The distance of neighbouring numbers at `x`. -/
noncomputable def ulp (x : ℝ) : ℝ := (2 : ℝ) ^ (Max.max (Int.log 2 |x| - 52) (-1074))

/-- Rounding as if the range of the exponents were unbounded above. -/
noncomputable def near (x : ℝ) : ℝ := nearestEven (x / ulp x) * ulp x

/-- Rounding. -/
noncomputable def round : XR → B64
  | .fin x => ⟨if (2 : ℝ) ^ (1024 : ℤ) ≤ near x then .pinf else if near x ≤ -(2 : ℝ) ^ (1024 : ℤ) then .ninf
      else .fin (near x)⟩
  | a => ⟨a⟩

end B64

/-- The arithmetic of `double`. -/
noncomputable instance instScalarB64 : Scalar B64 where
  lit n d := B64.round (lit n d)
  add a b := B64.round (a.val +. b.val)
  sub a b := B64.round (a.val -. b.val)
  mul a b := B64.round (a.val *. b.val)
  div a b := B64.round (a.val /. b.val)
  neg a := ⟨-. a.val⟩
  abs a := ⟨Scalar.abs a.val⟩
  sqrt a := B64.round (Scalar.sqrt a.val)
  pow a b := B64.round (Scalar.pow a.val b.val)
  sin a := B64.round (Scalar.sin a.val)
  cos a := B64.round (Scalar.cos a.val)
  acos a := B64.round (Scalar.acos a.val)
  atan a := B64.round (Scalar.atan a.val)
  atan2 a b := B64.round (Scalar.atan2 a.val b.val)
  pi := B64.round Scalar.pi
  eps := ⟨Scalar.eps⟩
  nan := ⟨Scalar.nan⟩
  lt a b := a.val <. b.val
  le a b := a.val <=. b.val
  eq a b := a.val ==. b.val

namespace B64

/-- A number that is neither infinite nor NaN. -/
def fin (x : ℝ) : B64 := ⟨.fin x⟩

theorem nearestEven_eq {q : ℝ} {n : ℤ} (h : |q - n| < 1 / 2) : nearestEven q = n := by
  rw [abs_lt] at h
  unfold nearestEven
  by_cases hn : (n : ℝ) ≤ q
  · have hf : ⌊q⌋ = n := Int.floor_eq_iff.2 ⟨hn, by linarith⟩
    have : Int.fract q < 1 / 2 := by rw [Int.fract, hf]; linarith
    rw [if_pos this, hf]
  · have hf : ⌊q⌋ = n - 1 := Int.floor_eq_iff.2 ⟨by push_cast; linarith, by push_cast; linarith⟩
    have h2 : 1 / 2 < Int.fract q := by rw [Int.fract, hf]; push_cast; linarith
    rw [if_neg (not_lt.2 h2.le), if_pos h2, hf]; ring

/-- Rounding a number between two powers of two. -/
theorem near_eq {x : ℝ} {e n : ℤ} (he : -1022 ≤ e) (hlo : (2 : ℝ) ^ e ≤ |x|) (hhi : |x| < (2 : ℝ) ^ (e + 1))
    (h : |x - n * (2 : ℝ) ^ (e - 52)| < (2 : ℝ) ^ (e - 52) / 2) : near x = n * (2 : ℝ) ^ (e - 52) := by
  have hx : 0 < |x| := lt_of_lt_of_le (by positivity) hlo
  have hlog : Int.log 2 |x| = e := by
    apply le_antisymm
    · rw [← Int.lt_add_one_iff]
      exact (Int.lt_zpow_iff_log_lt (b := 2) (by norm_num) hx).1 (by exact_mod_cast hhi)
    · exact (Int.zpow_le_iff_le_log (b := 2) (by norm_num) hx).1 (by exact_mod_cast hlo)
  have hu : ulp x = (2 : ℝ) ^ (e - 52) := by
    unfold ulp; rw [hlog, max_eq_left (by omega)]
  have hp : (0 : ℝ) < 2 ^ (e - 52) := by positivity
  unfold near
  rw [hu, nearestEven_eq (n := n)]
  rw [show x / 2 ^ (e - 52) - n = (x - n * (2 : ℝ) ^ (e - 52)) / 2 ^ (e - 52) by field_simp, abs_div,
    abs_of_pos hp, div_lt_iff₀ hp]
  linarith

@[simp] theorem near_zero : near 0 = 0 := by
  unfold near; rw [zero_div, nearestEven_eq (n := 0) (by norm_num)]; simp

/-- Numbers with 53 significant bits are not rounded. -/
theorem near_of_mul {e n : ℤ} (he : -1022 ≤ e) (hlo : 2 ^ 52 ≤ |n|) (hhi : |n| < 2 ^ 53) :
    near (n * (2 : ℝ) ^ (e - 52)) = n * (2 : ℝ) ^ (e - 52) := by
  have hp : (0 : ℝ) < 2 ^ (e - 52) := by positivity
  have habs : |(n : ℝ) * (2 : ℝ) ^ (e - 52)| = (|n| : ℤ) * (2 : ℝ) ^ (e - 52) := by
    rw [abs_mul, abs_of_pos hp]; push_cast; rfl
  apply near_eq he
  · rw [habs, show (2 : ℝ) ^ e = 2 ^ (52 : ℤ) * 2 ^ (e - 52) by rw [← zpow_add₀ (by norm_num)]; congr 1; ring]
    have : ((2 ^ 52 : ℤ) : ℝ) ≤ (|n| : ℤ) := by exact_mod_cast hlo
    apply mul_le_mul_of_nonneg_right _ hp.le
    calc (2 : ℝ) ^ (52 : ℤ) = ((2 ^ 52 : ℤ) : ℝ) := by norm_num
      _ ≤ _ := this
  · rw [habs, show (2 : ℝ) ^ (e + 1) = 2 ^ (53 : ℤ) * 2 ^ (e - 52) by
      rw [← zpow_add₀ (by norm_num)]; congr 1; ring]
    have : ((|n| : ℤ) : ℝ) < (2 ^ 53 : ℤ) := by exact_mod_cast hhi
    apply mul_lt_mul_of_pos_right _ hp
    calc ((|n| : ℤ) : ℝ) < ((2 ^ 53 : ℤ) : ℝ) := this
      _ = (2 : ℝ) ^ (53 : ℤ) := by norm_num
  · rw [sub_self, abs_zero]; positivity

theorem near_int {n : ℤ} {e : ℕ} (he : e ≤ 52) (hlo : 2 ^ e ≤ |n|) (hhi : |n| < 2 ^ (e + 1)) :
    near n = n := by
  have hp : (2 : ℤ) ^ e * 2 ^ (52 - e) = 2 ^ 52 := by rw [← pow_add]; congr 1; omega
  have hp' : (2 : ℤ) ^ (e + 1) * 2 ^ (52 - e) = 2 ^ 53 := by rw [← pow_add]; congr 1; omega
  have h := near_of_mul (e := e) (n := n * 2 ^ (52 - e)) (by omega)
    (by rw [abs_mul, abs_of_pos (show (0 : ℤ) < 2 ^ (52 - e) by positivity), ← hp]
        exact mul_le_mul_of_nonneg_right hlo (by positivity))
    (by rw [abs_mul, abs_of_pos (show (0 : ℤ) < 2 ^ (52 - e) by positivity), ← hp']
        exact mul_lt_mul_of_pos_right hhi (by positivity))
  have hz : ((n * 2 ^ (52 - e) : ℤ) : ℝ) * (2 : ℝ) ^ ((e : ℤ) - 52) = n := by
    push_cast
    rw [mul_assoc, ← zpow_natCast, ← zpow_add₀ (by norm_num), Nat.cast_sub he]
    simp
  rwa [hz] at h

theorem round_fin {x : ℝ} (h : |near x| < (2 : ℝ) ^ (1024 : ℤ)) : round (.fin x) = fin (near x) := by
  rw [abs_lt] at h
  show B64.mk (if _ then _ else if _ then _ else _) = _
  rw [if_neg (by linarith), if_neg (by linarith)]; rfl

theorem round_fin_of {x y : ℝ} (hy : near x = y) (h : |y| < (2 : ℝ) ^ (1024 : ℤ)) : round (.fin x) = fin y := by
  rw [round_fin (hy ▸ h), hy]

/-- Numbers with at most 53 significant bits and a moderate exponent are not rounded. -/
theorem exact {x : ℝ} (n f : ℤ) (hx : x = n * (2 : ℝ) ^ f) (hn : |n| < 2 ^ 53) (hlo : -970 ≤ f) (hhi : f ≤ 900) :
    round (.fin x) = fin x := by
  by_cases h0 : n = 0
  · subst h0
    have : x = 0 := by simpa using hx
    subst this
    exact round_fin_of near_zero (by simp only [abs_zero]; positivity)
  have hp : 0 < |n| := abs_pos.2 h0
  obtain ⟨b, hb⟩ : ∃ b : ℕ, b = Nat.log2 n.natAbs := ⟨_, rfl⟩
  have hnn : n.natAbs ≠ 0 := by omega
  have hb1 : 2 ^ b ≤ n.natAbs := by rw [hb]; exact Nat.log2_self_le hnn
  have hb2 : n.natAbs < 2 ^ (b + 1) := by rw [hb]; exact Nat.lt_log2_self
  have hn' : n.natAbs < 2 ^ 53 := by zify; exact hn
  have hb3 : b ≤ 52 := by
    by_contra hc
    have : 2 ^ 53 ≤ 2 ^ b := Nat.pow_le_pow_right (by norm_num) (by omega)
    omega
  have habs : |n| = (n.natAbs : ℤ) := Int.abs_eq_natAbs n
  have hi : |n * 2 ^ (52 - b)| = ((n.natAbs * 2 ^ (52 - b) : ℕ) : ℤ) := by
    rw [abs_mul, habs, abs_of_pos (show (0 : ℤ) < 2 ^ (52 - b) by positivity)]; push_cast; rfl
  have e1 : 2 ^ b * 2 ^ (52 - b) = 2 ^ 52 := by rw [← pow_add]; congr 1; omega
  have e2 : 2 ^ (b + 1) * 2 ^ (52 - b) = 2 ^ 53 := by rw [← pow_add]; congr 1; omega
  have h := near_of_mul (e := f + b) (n := n * 2 ^ (52 - b)) (by omega)
    (by rw [hi]; exact_mod_cast e1 ▸ Nat.mul_le_mul_right _ hb1)
    (by rw [hi]; exact_mod_cast e2 ▸ Nat.mul_lt_mul_of_pos_right hb2 (by positivity))
  have hv : ((n * 2 ^ (52 - b) : ℤ) : ℝ) * (2 : ℝ) ^ (f + b - 52) = x := by
    rw [hx]; push_cast
    rw [mul_assoc, ← zpow_natCast, ← zpow_add₀ (by norm_num)]
    congr 2; push_cast [Nat.cast_sub hb3]; ring
  rw [hv] at h
  refine round_fin_of h ?_
  rw [hx, abs_mul, abs_of_pos (show (0 : ℝ) < 2 ^ f by positivity)]
  calc |(n : ℝ)| * 2 ^ f = ((|n| : ℤ) : ℝ) * 2 ^ f := by push_cast; rfl
    _ < 2 ^ (53 : ℤ) * 2 ^ f := by
        apply mul_lt_mul_of_pos_right _ (by positivity)
        calc ((|n| : ℤ) : ℝ) < ((2 ^ 53 : ℤ) : ℝ) := by exact_mod_cast hn
          _ = (2 : ℝ) ^ (53 : ℤ) := by norm_num
    _ = 2 ^ (53 + f) := by rw [zpow_add₀ (by norm_num)]
    _ ≤ 2 ^ (1024 : ℤ) := zpow_le_zpow_right₀ (by norm_num) (by omega)

/-- A number of 53 significant bits (or `2 ^ 53` units), with an exponent that is not too small. -/
def Rep (g : ℝ) : Prop := ∃ n f : ℤ, g = n * (2 : ℝ) ^ f ∧ |n| ≤ 2 ^ 53 ∧ -1074 ≤ f

theorem Rep.neg {g : ℝ} (h : Rep g) : Rep (-g) := by
  obtain ⟨n, f, h1, h2, h3⟩ := h
  exact ⟨-n, f, by rw [h1]; push_cast; ring, by rwa [abs_neg], h3⟩

theorem rep_zero : Rep 0 := ⟨0, 0, by simp, by norm_num, by norm_num⟩
theorem rep_pow (k : ℕ) : Rep (2 ^ k) := ⟨1, k, by simp, by norm_num, by omega⟩
theorem rep_one : Rep 1 := by simpa using rep_pow 0

theorem nearestEven_le {q : ℝ} {k : ℤ} (h : q ≤ k) : nearestEven q ≤ k := by
  have h1 : ⌊q⌋ ≤ k := by exact_mod_cast (Int.floor_le q).trans h
  unfold nearestEven
  split_ifs with h2 h3 h4
  · exact h1
  all_goals first | exact h1 | skip
  all_goals
    rcases lt_or_eq_of_le h1 with h5 | h5
    · omega
    · exfalso
      have h6 : Int.fract q ≤ 0 := by rw [Int.fract, h5]; linarith
      linarith

theorem le_nearestEven {q : ℝ} {k : ℤ} (h : (k : ℝ) ≤ q) : k ≤ nearestEven q := by
  have h1 : k ≤ ⌊q⌋ := Int.le_floor.2 h
  unfold nearestEven
  split_ifs <;> omega

/-- A bound that is a number of the format is a bound of the rounded number. -/
theorem near_le {x g : ℝ} (hg : Rep g) (h : x ≤ g) : near x ≤ g := by
  by_cases hx0 : x = 0
  · rw [hx0, near_zero]; linarith
  obtain ⟨n, f, hn, hn2, hf⟩ := hg
  obtain ⟨E, hE⟩ : ∃ E : ℤ, E = Max.max (Int.log 2 |x| - 52) (-1074) := ⟨_, rfl⟩
  have hu : ulp x = (2 : ℝ) ^ E := by rw [ulp, hE]
  have hp : (0 : ℝ) < 2 ^ E := by positivity
  have key : ∀ k : ℤ, x ≤ k * (2 : ℝ) ^ E → near x ≤ k * (2 : ℝ) ^ E := by
    intro k hk
    unfold near; rw [hu]
    apply mul_le_mul_of_nonneg_right _ hp.le
    exact_mod_cast nearestEven_le (by rwa [div_le_iff₀ hp])
  by_cases hEf : E ≤ f
  · have hk : g = (n * 2 ^ (f - E).toNat : ℤ) * (2 : ℝ) ^ E := by
      rw [hn]; push_cast
      rw [mul_assoc, ← zpow_natCast, ← zpow_add₀ (by norm_num)]
      congr 2; rw [Int.toNat_of_nonneg (by omega)]; ring
    rw [hk]; exact key _ (hk ▸ h)
  · have hlog : Int.log 2 |x| = E + 52 := by omega
    have hxp : 0 < |x| := abs_pos.2 hx0
    have hxlo : (2 : ℝ) ^ (E + 52) ≤ |x| := by
      rw [← hlog]; exact_mod_cast Int.zpow_log_le_self (b := 2) (by norm_num) hxp
    have hglo : |g| ≤ (2 : ℝ) ^ (E + 52) := by
      rw [hn, abs_mul, abs_of_pos (show (0 : ℝ) < 2 ^ f by positivity)]
      calc |(n : ℝ)| * 2 ^ f = ((|n| : ℤ) : ℝ) * 2 ^ f := by push_cast; rfl
        _ ≤ 2 ^ (53 : ℤ) * 2 ^ f := by
            apply mul_le_mul_of_nonneg_right _ (by positivity)
            calc ((|n| : ℤ) : ℝ) ≤ ((2 ^ 53 : ℤ) : ℝ) := by exact_mod_cast hn2
              _ = (2 : ℝ) ^ (53 : ℤ) := by norm_num
        _ = 2 ^ (53 + f) := by rw [zpow_add₀ (by norm_num)]
        _ ≤ 2 ^ (E + 52) := zpow_le_zpow_right₀ (by norm_num) (by omega)
    have hpow : (2 : ℝ) ^ (E + 52) = (2 ^ 52 : ℤ) * (2 : ℝ) ^ E := by
      rw [add_comm, zpow_add₀ (by norm_num)]; norm_num
    rcases abs_cases x with ⟨hx1, hx2⟩ | ⟨hx1, hx2⟩
    · have : g = (2 : ℝ) ^ (E + 52) := le_antisymm ((le_abs_self g).trans hglo) (by rw [hx1] at hxlo; linarith)
      rw [this, hpow]; exact key _ (by rw [← hpow, ← this]; exact h)
    · have h1 := key (-2 ^ 52) (by
        push_cast at hpow ⊢
        rw [hx1] at hxlo; linarith)
      have h2 := neg_abs_le g
      push_cast at h1 hpow
      linarith

theorem near_neg_le {x g : ℝ} (hg : Rep g) (h : g ≤ x) : g ≤ near x := by
  by_cases hx0 : x = 0
  · rw [hx0, near_zero]; linarith
  obtain ⟨n, f, hn, hn2, hf⟩ := hg
  obtain ⟨E, hE⟩ : ∃ E : ℤ, E = Max.max (Int.log 2 |x| - 52) (-1074) := ⟨_, rfl⟩
  have hu : ulp x = (2 : ℝ) ^ E := by rw [ulp, hE]
  have hp : (0 : ℝ) < 2 ^ E := by positivity
  have key : ∀ k : ℤ, k * (2 : ℝ) ^ E ≤ x → k * (2 : ℝ) ^ E ≤ near x := by
    intro k hk
    unfold near; rw [hu]
    apply mul_le_mul_of_nonneg_right _ hp.le
    exact_mod_cast le_nearestEven (by rwa [le_div_iff₀ hp])
  by_cases hEf : E ≤ f
  · have hk : g = (n * 2 ^ (f - E).toNat : ℤ) * (2 : ℝ) ^ E := by
      rw [hn]; push_cast
      rw [mul_assoc, ← zpow_natCast, ← zpow_add₀ (by norm_num)]
      congr 2; rw [Int.toNat_of_nonneg (by omega)]; ring
    rw [hk]; exact key _ (hk ▸ h)
  · have hlog : Int.log 2 |x| = E + 52 := by omega
    have hxp : 0 < |x| := abs_pos.2 hx0
    have hxlo : (2 : ℝ) ^ (E + 52) ≤ |x| := by
      rw [← hlog]; exact_mod_cast Int.zpow_log_le_self (b := 2) (by norm_num) hxp
    have hglo : |g| ≤ (2 : ℝ) ^ (E + 52) := by
      rw [hn, abs_mul, abs_of_pos (show (0 : ℝ) < 2 ^ f by positivity)]
      calc |(n : ℝ)| * 2 ^ f = ((|n| : ℤ) : ℝ) * 2 ^ f := by push_cast; rfl
        _ ≤ 2 ^ (53 : ℤ) * 2 ^ f := by
            apply mul_le_mul_of_nonneg_right _ (by positivity)
            calc ((|n| : ℤ) : ℝ) ≤ ((2 ^ 53 : ℤ) : ℝ) := by exact_mod_cast hn2
              _ = (2 : ℝ) ^ (53 : ℤ) := by norm_num
        _ = 2 ^ (53 + f) := by rw [zpow_add₀ (by norm_num)]
        _ ≤ 2 ^ (E + 52) := zpow_le_zpow_right₀ (by norm_num) (by omega)
    have hpow : (2 : ℝ) ^ (E + 52) = (2 ^ 52 : ℤ) * (2 : ℝ) ^ E := by
      rw [add_comm, zpow_add₀ (by norm_num)]; norm_num
    rcases abs_cases x with ⟨hx1, hx2⟩ | ⟨hx1, hx2⟩
    · have h1 := key (2 ^ 52) (by rw [← hpow]; rw [hx1] at hxlo; linarith)
      have h2 := le_abs_self g
      rw [← hpow] at h1
      linarith
    · have : g = -(2 : ℝ) ^ (E + 52) := le_antisymm (by rw [hx1] at hxlo; linarith) (by have := neg_abs_le g; linarith)
      have h1 := key (-2 ^ 52) (by push_cast at hpow ⊢; linarith)
      push_cast at h1 hpow
      linarith

/-- A rounded number is one of the format. -/
theorem rep_near (x : ℝ) : Rep (near x) := by
  by_cases hx0 : x = 0
  · rw [hx0, near_zero]; exact rep_zero
  have hE : ∃ E : ℤ, E = Max.max (Int.log 2 |x| - 52) (-1074) := ⟨_, rfl⟩
  obtain ⟨E, hE⟩ := hE
  have hu : ulp x = (2 : ℝ) ^ E := by rw [ulp, hE]
  have hp : (0 : ℝ) < 2 ^ E := by positivity
  have hx : |x| ≤ (2 : ℝ) ^ (53 : ℤ) * 2 ^ E := by
    have h1 : |x| < (2 : ℝ) ^ (Int.log 2 |x| + 1) := by
      exact_mod_cast Int.lt_zpow_succ_log_self (b := 2) (by norm_num) |x|
    rw [← zpow_add₀ (by norm_num)]
    exact h1.le.trans (zpow_le_zpow_right₀ (by norm_num) (by omega))
  have hq : |x / 2 ^ E| ≤ ((2 ^ 53 : ℤ) : ℝ) := by
    rw [abs_div, abs_of_pos hp, div_le_iff₀ hp]
    calc |x| ≤ (2 : ℝ) ^ (53 : ℤ) * 2 ^ E := hx
      _ = _ := by norm_num
  rw [abs_le] at hq
  refine ⟨nearestEven (x / 2 ^ E), E, by rw [near, hu], ?_, by omega⟩
  rw [abs_le]
  exact ⟨le_nearestEven (by push_cast at hq ⊢; exact hq.1), nearestEven_le hq.2⟩

/-- Rounding a number that is not too large gives a number, and keeps bounds that are numbers of the format. -/
theorem round_bounds {x : ℝ} {k : ℕ} (hk : k ≤ 1000) (hx : |x| ≤ 2 ^ k) :
    ∃ y : ℝ, round (.fin x) = fin y ∧ |y| ≤ 2 ^ k ∧ (∀ g, Rep g → x ≤ g → y ≤ g) ∧ ∀ g, Rep g → g ≤ x → g ≤ y := by
  rw [abs_le] at hx
  have h1 := near_le (rep_pow k) hx.2
  have h2 := near_neg_le (rep_pow k).neg hx.1
  have h3 : |near x| ≤ 2 ^ k := abs_le.2 ⟨h2, h1⟩
  refine ⟨near x, round_fin ?_, h3, fun g hg => near_le hg, fun g hg => near_neg_le hg⟩
  refine h3.trans_lt ?_
  rw [← zpow_natCast]
  exact zpow_lt_zpow_right₀ (by norm_num) (by omega)

/-- Rounding a number between two powers of two, with a moderate exponent. -/
theorem round_eq {x : ℝ} (e n : ℤ) {y : ℝ} (hy : y = n * (2 : ℝ) ^ (e - 52)) (he : -1022 ≤ e) (he' : e ≤ 1000)
    (hlo : (2 : ℝ) ^ e ≤ |x|) (hhi : |x| < (2 : ℝ) ^ (e + 1)) (h : |x - y| < (2 : ℝ) ^ (e - 52) / 2) :
    round (.fin x) = fin y := by
  have hn := near_eq he hlo hhi (n := n) (by rw [← hy]; exact h)
  rw [← hy] at hn
  refine round_fin_of hn ?_
  have h1 : |y| ≤ |x| + |x - y| := by
    have := abs_sub_abs_le_abs_sub y x
    rw [abs_sub_comm] at this; linarith
  have h2 : (2 : ℝ) ^ (e - 52) / 2 ≤ 2 ^ (e + 1) := by
    have : (2 : ℝ) ^ (e - 52) ≤ 2 ^ (e + 1) := zpow_le_zpow_right₀ (by norm_num) (by omega)
    have : (0 : ℝ) < 2 ^ (e - 52) := by positivity
    linarith
  calc |y| < 2 ^ (e + 1) + 2 ^ (e + 1) := by linarith
    _ = 2 ^ (e + 2) := by rw [show e + 2 = (e + 1) + 1 by ring, zpow_add_one₀ (by norm_num) (e + 1)]; ring
    _ ≤ 2 ^ (1024 : ℤ) := zpow_le_zpow_right₀ (by norm_num) (by omega)

@[simp] theorem round_nan : round .nan = ⟨.nan⟩ := rfl
@[simp] theorem add_fin (x y : ℝ) : fin x +. fin y = round (.fin (x + y)) := rfl
@[simp] theorem sub_fin (x y : ℝ) : fin x -. fin y = round (.fin (x - y)) := by
  show round (XR.fin x -. XR.fin y) = _; rw [XR.sub_fin]
@[simp] theorem mul_fin (x y : ℝ) : fin x *. fin y = round (.fin (x * y)) := rfl
theorem div_fin (x : ℝ) {y : ℝ} (h : y ≠ 0) : fin x /. fin y = round (.fin (x / y)) := by
  show round (XR.fin x /. XR.fin y) = _; rw [XR.div_fin _ _ h]
theorem sqrt_fin {x : ℝ} (h : 0 ≤ x) : Scalar.sqrt (fin x) = round (.fin (Real.sqrt x)) := by
  show round (Scalar.sqrt (XR.fin x)) = _; rw [XR.sqrt_fin _ h]
@[simp] theorem lt_fin (x y : ℝ) : (fin x <. fin y) = decide (x < y) := rfl
@[simp] theorem le_fin (x y : ℝ) : (fin x <=. fin y) = decide (x ≤ y) := rfl

end B64
end Enve
