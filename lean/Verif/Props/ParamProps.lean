import Verif.Props.FiniteProps
import Verif.Props.BuildProps

/-! # Which parameters the constructor of a tyre refuses -/

namespace Enve
open Scalar Spec B64

namespace Param

/-- What the loop has checked when it has placed a rib. -/
theorem loop_ok {sh : Shape B64} {w y : B64} {k i : Nat} {acc l : List (Rib B64)}
    (h : Shell.resizeLoop sh w (k + 1) i y acc = .ok l ()) :
    ∃ r a, sh.surfaceRadius (y +. w) = .ok r ∧ sh.surfaceAngle (y +. w) Scalar.eps = .ok a ∧
      (Scalar.zero <. r) = true ∧ (a ==. a) = true ∧
      Shell.resizeLoop sh w k (i + 1) (y +. w) (acc ++ [Rib.make i r (y +. w) w a]) = .ok l () := by
  simp only [Shell.resizeLoop] at h
  cases hr : sh.surfaceRadius (y +. w) with
  | throw m => rw [hr] at h; simp at h
  | ub m => rw [hr] at h; simp at h
  | ok r =>
    cases ha : sh.surfaceAngle (y +. w) Scalar.eps with
    | throw m => rw [hr, ha] at h; simp at h
    | ub m => rw [hr, ha] at h; simp at h
    | ok a =>
      rw [hr, ha] at h
      simp only [Res.bind_ok, Res.assert] at h
      by_cases h1 : (Scalar.zero <. r) = true
      · by_cases h2 : (r ==. r) = true
        · by_cases h3 : (a ==. a) = true
          · simp only [h1, h2, h3, if_true, Res.bind_ok, Res.pure_eq] at h
            exact ⟨r, a, rfl, rfl, h1, h3, h⟩
          · simp [h1, h2, h3] at h
        · simp [h1, h2] at h
      · simp [h1] at h

theorem make_ok {fresh : Nat → Output B64} {n : Nat} {rx mx ry my ly : B64} {s : Shell B64}
    (h : Shell.make fresh n rx mx ry my ly = .ok s) :
    n ≠ 0 ∧ ∃ l, s.ribs = l ∧ Shell.resizeLoop ⟨rx, mx, ry, my, ly⟩ (two *. ly /. Scalar.ofNat n) n 0
      ((-. ly) -. two *. ly /. Scalar.ofNat n /. two) [] = .ok l () := by
  unfold Shell.make Shell.resize at h
  dsimp only [Shape.surfaceMaxWidth] at h
  by_cases hn : n = 0
  · simp [hn] at h
  · refine ⟨hn, ?_⟩
    rw [if_neg hn] at h
    cases hl : Shell.resizeLoop (⟨rx, mx, ry, my, ly⟩ : Shape B64) (two *. ly /. Scalar.ofNat n) n 0
      ((-. ly) -. two *. ly /. Scalar.ofNat n /. two) [] with
    | ok l u =>
      rw [hl] at h
      simp only [Res.ok.injEq] at h
      exact ⟨l, by rw [← h]; rfl, rfl⟩
    | throw m => rw [hl] at h; simp at h
    | ub m => rw [hl] at h; simp at h

/-- The radius of the first rib. -/
theorem first {fresh : Nat → Output B64} {n : Nat} {rx mx ry my ly : B64} {s : Shell B64}
    (h : Shell.make fresh n rx mx ry my ly = .ok s) :
    ∃ y, y = (-. ly) -. two *. ly /. Scalar.ofNat n /. two +. two *. ly /. Scalar.ofNat n ∧
      (ly <. Scalar.abs y) = false ∧
      (Scalar.zero <. rx *. Scalar.pow (one -. Scalar.pow (Scalar.abs y /. ry) my) (one /. mx)) = true := by
  obtain ⟨hn, l, -, hl⟩ := make_ok h
  obtain ⟨k, rfl⟩ := Nat.exists_eq_succ_of_ne_zero hn
  obtain ⟨r, a, hr, -, h0, -, -⟩ := loop_ok hl
  refine ⟨_, rfl, ?_⟩
  unfold Shape.surfaceRadius Shape.checkWidthBound at hr
  dsimp only at hr
  split_ifs at hr with h1
  · simp [Res.assert] at hr
  · simp only [Res.assert, if_true, Res.bind_ok, Res.pure_eq, Res.ok.injEq] at hr
    refine ⟨by simpa using h1, ?_⟩
    rw [hr]; exact h0

theorem pos_notnan {a : B64} (h : (Scalar.zero <. a) = true) : NotNaN a := by
  intro e
  obtain ⟨a⟩ := a
  have : a = .nan := e
  subst this
  rw [B64.zero_eq] at h
  exact absurd h Bool.false_ne_true

theorem pow_notnan {a b : B64} (h : NotNaN (Scalar.pow a b)) (hb : b.val ≠ .fin 0) : NotNaN a := by
  intro e
  refine round_notnan' h ?_
  rw [e]; exact XR.nan_pow _ hb
where
  round_notnan' {a : XR} (h : NotNaN (B64.round a)) : a ≠ .nan := Finite.round_notnan h

/-- One over a positive number of moderate size is positive. -/
theorem inv_pos {m : ℝ} (h0 : 0 < m) (h1 : m ≤ 2 ^ 1000) :
    (∃ e, 0 < e ∧ (one : B64) /. fin m = fin e) ∨ (one : B64) /. fin m = ⟨.pinf⟩ := by
  rw [B64.one_eq, div_fin _ h0.ne', round_def]
  have hle : (2 : ℝ) ^ (-1000 : ℤ) ≤ near (1 / m) := by
    refine near_neg_le (rep_zpow (by norm_num)) ?_
    rw [zpow_neg, ← one_div]
    refine one_div_le_one_div_of_le h0 ?_
    exact_mod_cast h1
  have hp : (0 : ℝ) < near (1 / m) := lt_of_lt_of_le (by positivity) hle
  split_ifs with h2 h3
  · exact .inr rfl
  · exact absurd h3 (not_le.2 (lt_trans (by simp) hp))
  · exact .inl ⟨_, hp, rfl⟩

theorem nat_cases (n : Nat) : (∃ k, 0 ≤ k ∧ (Scalar.ofNat n : B64) = fin k) ∨ (Scalar.ofNat n : B64) = ⟨.pinf⟩ := by
  have e : (Scalar.ofNat n : B64) = B64.round (.fin n) := by
    show B64.round (.fin ((n : ℝ) / (1 : ℕ))) = _
    norm_num
  rw [e, round_def]
  have h0 : (0 : ℝ) ≤ near n := near_neg_le rep_zero (Nat.cast_nonneg n)
  split_ifs with h2 h3
  · exact .inr rfl
  · exact absurd h3 (not_le.2 (lt_of_lt_of_le (by simp) h0))
  · exact .inl ⟨_, h0, rfl⟩

theorem pinf_div_nat (n : Nat) : (⟨.pinf⟩ : B64) /. Scalar.ofNat n = ⟨.pinf⟩ ∨ (⟨.pinf⟩ : B64) /. Scalar.ofNat n = ⟨.nan⟩ := by
  rcases nat_cases n with ⟨k, hk, h⟩ | h <;> rw [h]
  · left
    show B64.round (if 0 ≤ k then XR.pinf else _) = _
    rw [if_pos hk]; rfl
  · exact .inr rfl

theorem ninf_div_nat (n : Nat) : (⟨.ninf⟩ : B64) /. Scalar.ofNat n = ⟨.ninf⟩ ∨ (⟨.ninf⟩ : B64) /. Scalar.ofNat n = ⟨.nan⟩ := by
  rcases nat_cases n with ⟨k, hk, h⟩ | h <;> rw [h]
  · left
    show B64.round (if 0 ≤ k then XR.ninf else _) = _
    rw [if_pos hk]; rfl
  · exact .inr rfl

/-- Every rib of a tyre that was built has passed the checks. -/
theorem loop_all {sh : Shape B64} {w : B64} {Q : Rib B64 → Prop}
    (H : ∀ i y r a, sh.surfaceRadius y = .ok r → sh.surfaceAngle y Scalar.eps = .ok a → (Scalar.zero <. r) = true →
      (a ==. a) = true → Q (Rib.make i r y w a)) :
    ∀ {k i : Nat} {y : B64} {acc l : List (Rib B64)}, Shell.resizeLoop sh w k i y acc = .ok l () →
      (∀ r ∈ acc, Q r) → ∀ r ∈ l, Q r
  | 0, i, y, acc, l, h, ha => by
    simp only [Shell.resizeLoop, MRes.ok.injEq] at h
    rw [← h.1]; exact ha
  | k + 1, i, y, acc, l, h, ha => by
    obtain ⟨r, a, hr, hg, h0, hn, h⟩ := loop_ok h
    refine loop_all H h ?_
    intro r' hr'
    rcases List.mem_append.1 hr' with h' | h'
    · exact ha r' h'
    · rw [List.mem_singleton.1 h']
      exact H _ _ _ _ hr hg h0 hn

theorem self_notnan {a : B64} (h : (a ==. a) = true) : NotNaN a := by
  intro e
  obtain ⟨a⟩ := a
  have : a = .nan := e
  subst this
  exact absurd h Bool.false_ne_true

end Param

/-- The largest radius of a tyre that was built is not NaN, whatever the other parameters are. -/
theorem C120_radius_partial {fresh : Nat → Output B64} {n : Nat} {rx mx ry my ly : B64} {s : Shell B64}
    (h : Shell.make fresh n rx mx ry my ly = .ok s) : NotNaN rx := by
  obtain ⟨y, -, -, h0⟩ := Param.first h
  exact (Finite.notnan.mul (Param.pos_notnan h0)).1

/-- If `Mx` is NaN, a tyre is built at most if all its ribs are in the middle. -/
theorem C120_exponent_partial {fresh : Nat → Output B64} {n : Nat} {rx ry my ly : B64} {s : Shell B64}
    (h : Shell.make fresh n rx ⟨.nan⟩ ry my ly = .ok s) :
    ∀ r ∈ s.ribs, (Scalar.eps <. Scalar.abs r.y) = false := by
  obtain ⟨-, l, hs, hl⟩ := Param.make_ok h
  rw [hs]
  refine Param.loop_all (Q := fun r => (Scalar.eps <. Scalar.abs r.y) = false) ?_ hl (by simp)
  intro i y r a hr ha h0 hn
  show (Scalar.eps <. Scalar.abs y) = false
  by_contra hc
  rw [Bool.not_eq_false] at hc
  refine Param.self_notnan hn ?_
  unfold Shape.surfaceAngle Shape.surfaceDerivative at ha
  rw [if_pos hc] at ha
  cases hb : Shape.checkWidthBound (⟨rx, ⟨.nan⟩, ry, my, ly⟩ : Shape B64) y with
  | false => rw [hb] at ha; simp [Res.assert] at ha
  | true =>
    rw [hb] at ha
    simp only [Res.assert, if_true, Res.bind_ok, Res.pure_eq, Res.ok.injEq] at ha
    rw [← ha]
    have : ∀ b c : B64, (Scalar.atan (b /. ((⟨.nan⟩ : B64) *. c))).val = .nan := fun b c => by
      have e1 : (⟨.nan⟩ : B64) *. c = ⟨.nan⟩ := by
        show B64.round (XR.nan *. c.val) = _
        rw [XR.nan_mul]; rfl
      have e2 : b /. (⟨.nan⟩ : B64) = ⟨.nan⟩ := by
        obtain ⟨b⟩ := b
        cases b <;> rfl
      rw [e1, e2]; rfl
    exact this _ _

/-- **What the constructor checks.**  With an exponent `Mx` that is a positive number and `My ≠ 0`, a tyre is built only
if no parameter is NaN, and the width is a number and not negative. -/
theorem C120_partial {fresh : Nat → Output B64} {n : Nat} {mx : ℝ} {rx ry my ly : B64} {s : Shell B64}
    (hmx : 0 < mx) (hmx' : mx ≤ 2 ^ 1000) (hmy : my ≠ fin 0) (h : Shell.make fresh n rx (fin mx) ry my ly = .ok s) :
    NotNaN rx ∧ NotNaN ry ∧ NotNaN my ∧ ∃ l : ℝ, 0 ≤ l ∧ ly = fin l := by
  obtain ⟨y, hy, hw, h0⟩ := Param.first h
  have hN := Param.pos_notnan h0
  obtain ⟨hrx, hP⟩ := Finite.notnan.mul hN
  have hE := Param.inv_pos hmx hmx'
  have hE0 : ((one : B64) /. fin mx).val ≠ .fin 0 := by
    rcases hE with ⟨e, he, hE⟩ | hE <;> rw [hE]
    · show XR.fin e ≠ XR.fin 0
      intro h; injection h with h; exact he.ne' h
    · show XR.pinf ≠ XR.fin 0
      simp
  have hD := Param.pow_notnan hP hE0
  have hQ := (Finite.notnan.sub hD).2
  have hmyv : my.val ≠ .fin 0 := fun e => hmy (by obtain ⟨m⟩ := my; exact congrArg B64.mk e)
  have hq := Param.pow_notnan hQ hmyv
  have hya := Finite.notnan.div hq
  have hyn : NotNaN y := by
    intro e; refine hya ?_
    show (Scalar.abs y.val) = _
    rw [e]; rfl
  refine ⟨hrx, ?_, ?_, ?_⟩
  · intro e
    refine Finite.round_notnan hq ?_
    rw [e]
    cases Scalar.abs y with | mk a => cases a <;> rfl
  · intro e
    by_cases h1 : (Scalar.abs y /. ry).val = .fin 1
    · have e1 : Scalar.pow (Scalar.abs y /. ry) my = fin 1 := by
        show B64.round (Scalar.pow (Scalar.abs y /. ry).val my.val) = _
        rw [h1, XR.one_pow, DoubleDemo.r1]
      rw [e1, B64.one_eq, sub_fin, sub_self, DoubleDemo.r0] at h0
      have e2 : Scalar.pow (fin 0) (fin 1 /. fin mx) = fin 0 := by
        rw [B64.one_eq] at hE
        rcases hE with ⟨e, he, hE⟩ | hE <;> rw [hE]
        · rw [pow_fin (.inr ⟨rfl, he⟩), Real.zero_rpow he.ne', DoubleDemo.r0]
        · show B64.round (XR.pow (.fin 0) .pinf) = _
          have : XR.pow (.fin 0) .pinf = .fin 0 := by
            unfold XR.pow
            rw [if_neg (by simp)]
            dsimp only
            rw [if_neg (by norm_num), if_pos (by norm_num)]
          rw [this, DoubleDemo.r0]
      rw [e2, B64.zero_eq] at h0
      obtain ⟨a⟩ := rx
      cases a with
      | fin x =>
        change (fin 0 <. fin x *. fin 0) = true at h0
        rw [mul_fin, mul_zero, DoubleDemo.r0, lt_fin] at h0
        simp at h0
      | pinf =>
        change ((.fin 0 : XR) <. (B64.round (XR.infSign 0)).val) = true at h0
        simp [XR.infSign] at h0
      | ninf =>
        change ((.fin 0 : XR) <. (B64.round (XR.infSign (-0))).val) = true at h0
        simp [XR.infSign] at h0
      | nan => exact hrx rfl
    · refine Finite.round_notnan hQ ?_
      rw [e]; exact XR.pow_nan _ h1
  · obtain ⟨l⟩ := ly
    cases l with
    | fin l =>
      refine ⟨l, ?_, rfl⟩
      by_contra hl
      rw [not_le] at hl
      have : ((B64.fin l) <. Scalar.abs y) = true := by
        obtain ⟨y⟩ := y
        cases y with
        | fin y =>
          change (fin l <. Scalar.abs (fin y)) = true
          rw [DoubleDemo.abs_fin, lt_fin, decide_eq_true_eq]
          exact lt_of_lt_of_le hl (abs_nonneg y)
        | pinf => rfl
        | ninf => rfl
        | nan => exact absurd rfl hyn
      exact Bool.false_ne_true (hw.symm.trans this)
    | pinf =>
      refine absurd ?_ hyn
      rw [hy, DoubleDemo.two_eq]
      have e1 : fin 2 *. (⟨.pinf⟩ : B64) = ⟨.pinf⟩ := by
        show B64.round (XR.fin 2 *. XR.pinf) = _
        rw [XR.mul_pinf _ (by norm_num)]; rfl
      rw [e1]
      rcases Param.pinf_div_nat n with h | h <;> rw [h]
      · have e2 : (⟨.pinf⟩ : B64) /. fin 2 = ⟨.pinf⟩ := by
          show B64.round (if (0 : ℝ) ≤ 2 then XR.pinf else _) = _
          rw [if_pos (by norm_num)]; rfl
        rw [e2]; rfl
      · rfl
    | ninf =>
      refine absurd ?_ hyn
      rw [hy, DoubleDemo.two_eq]
      have e1 : fin 2 *. (⟨.ninf⟩ : B64) = ⟨.ninf⟩ := by
        show B64.round (XR.infSign (-2)) = _
        rw [XR.infSign, if_neg (by norm_num), if_pos (by norm_num)]; rfl
      rw [e1]
      rcases Param.ninf_div_nat n with h | h <;> rw [h]
      · have e2 : (⟨.ninf⟩ : B64) /. fin 2 = ⟨.ninf⟩ := by
          show B64.round (if (0 : ℝ) ≤ 2 then XR.ninf else _) = _
          rw [if_pos (by norm_num)]; rfl
        rw [e2]; rfl
      · rfl
    | nan =>
      refine absurd ?_ hyn
      rw [hy]; rfl

namespace Param

/-- One step of the loop, from the outcomes of the profile queries. -/
theorem step {sh : Shape B64} {w y z r a : B64} {k i : Nat} {acc : List (Rib B64)} (hz : y +. w = z)
    (hr : sh.surfaceRadius z = .ok r) (ha : sh.surfaceAngle z Scalar.eps = .ok a) (h0 : (Scalar.zero <. r) = true)
    (h1 : (r ==. r) = true) (h2 : (a ==. a) = true) :
    Shell.resizeLoop sh w (k + 1) i y acc = Shell.resizeLoop sh w k (i + 1) z (acc ++ [Rib.make i r z w a]) := by
  simp only [Shell.resizeLoop, hz, hr, ha, Res.bind_ok, Res.assert, h0, h1, h2, if_true, Res.pure_eq]

/-- A tyre from the outcome of the loop. -/
theorem build (fresh : Nat → Output B64) {n : Nat} {rx mx ry my ly w y : B64} {l : List (Rib B64)} (hn : n ≠ 0)
    (hw : two *. ly /. Scalar.ofNat n = w) (hy : (-. ly) -. w /. two = y)
    (h : Shell.resizeLoop ⟨rx, mx, ry, my, ly⟩ w n 0 y [] = .ok l ()) :
    ∃ s, Shell.make fresh n rx mx ry my ly = .ok s ∧ s.ribs = l ∧ s.shape = ⟨rx, mx, ry, my, ly⟩ ∧
      s.bbox = (Shell.updateBBox ⟨Affine.id, ⟨rx, mx, ry, my, ly⟩, Box.default, [], RecVec.init fresh, []⟩).bbox := by
  unfold Shell.make Shell.resize
  dsimp only [Shape.surfaceMaxWidth]
  rw [if_neg hn, hw, hy, h]
  exact ⟨_, rfl, rfl, rfl, rfl⟩

theorem rd {x : ℝ} (m f : ℤ) (h : x = m * (2 : ℝ) ^ f) (hm : |m| < 2 ^ 53 := by norm_num) (h1 : -970 ≤ f := by norm_num)
    (h2 : f ≤ 900 := by norm_num) : B64.round (.fin x) = fin x := B64.exact m f h hm h1 h2

theorem nat2 : (Scalar.ofNat 2 : B64) = fin 2 := by
  show B64.round (.fin (((2 : ℕ) : ℝ) / (1 : ℕ))) = _
  rw [rd 2 0 (by norm_num)]; norm_num

/-- The middle of a tyre with `Ry = 1`, `My = 2`, `Ly = 1/2`. -/
theorem middle {rx mx : B64} {r : B64} (h : rx *. Scalar.pow (fin 1) (one /. mx) = r) (h0 : (Scalar.zero <. r) = true)
    (h1 : (r ==. r) = true) (fresh : Nat → Output B64) :
    ∃ s, Shell.make fresh 1 rx mx (fin 1) (fin 2) (fin (1 / 2)) = .ok s ∧ s.ribs = [Rib.make 0 r (fin 0) (fin 1) (fin 0)] := by
  have chk : Shape.checkWidthBound (⟨rx, mx, fin 1, fin 2, fin (1 / 2)⟩ : Shape B64) (fin 0) = true := by
    simp [Shape.checkWidthBound, DoubleDemo.abs_fin]
  obtain ⟨s, e, hl, -⟩ := build fresh (rx := rx) (mx := mx) (ry := fin 1) (my := fin 2) (ly := fin (1 / 2)) one_ne_zero
    (w := fin 1) (y := fin (-1)) (l := [Rib.make 0 r (fin 0) (fin 1) (fin 0)])
    (by rw [DoubleDemo.two_eq, DoubleDemo.nat1, mul_fin, show (2 * (1 / 2) : ℝ) = 1 by norm_num, DoubleDemo.r1,
          div_fin _ one_ne_zero, div_one, DoubleDemo.r1])
    (by rw [DoubleDemo.two_eq, div_fin _ two_ne_zero, rd 1 (-1) (by norm_num), DoubleDemo.neg_fin, sub_fin,
          show (-(1 / 2) - 1 / 2 : ℝ) = -1 by norm_num, rd (-1) 0 (by norm_num)])
    (by
      refine (step (k := 0) (z := fin 0) (r := r) (a := fin 0) ?_ ?_ ?_ ?_ ?_ ?_).trans rfl
      · rw [add_fin, show (-1 + 1 : ℝ) = 0 by norm_num, DoubleDemo.r0]
      · simp only [Shape.surfaceRadius, chk, Res.assert, if_true, Res.bind_ok, Res.pure_eq]
        rw [DoubleDemo.abs_fin, abs_zero, div_fin _ one_ne_zero, zero_div, DoubleDemo.r0, DoubleDemo.pow0, B64.one_eq,
          sub_fin, sub_zero, DoubleDemo.r1, ← B64.one_eq, ← h, B64.one_eq]
      · have hp := real_eps_pos
        have he : ((Scalar.eps : B64) <. Scalar.abs (fin 0)) = false := by
          rw [DoubleDemo.abs_fin, show (Scalar.eps : B64) = fin Scalar.eps from rfl, lt_fin, abs_zero]
          simpa using hp.le
        simp only [Shape.surfaceAngle, Shape.surfaceDerivative, chk, Res.assert, if_true, Res.bind_ok, Res.pure_eq, he]
        rw [if_neg Bool.false_ne_true, Res.bind_ok, B64.zero_eq, DoubleDemo.atan0]
      · exact h0
      · exact h1
      · exact DoubleDemo.eq_fin 0)
  exact ⟨s, e, hl⟩

theorem atan_ok (x : ℝ) : ∃ a, Scalar.atan (fin x) = fin a := by
  refine ⟨near (Real.arctan x), ?_⟩
  show B64.round (Scalar.atan (XR.fin x)) = _
  have : Scalar.atan (XR.fin x) = .fin (Real.arctan x) := by
    simp [Scalar.atan, XR.partialFun]
  rw [this, round_near (k := 1) (by norm_num)]
  have h1 := Real.neg_pi_div_two_lt_arctan x
  have h2 := Real.arctan_lt_pi_div_two x
  have h3 := Real.pi_le_four
  rw [abs_le]; constructor <;> linarith

/-- Numbers that are not rounded. -/
def Ex (x : ℝ) : Prop := B64.round (.fin x) = fin x

/-- A rib of a profile with `Ry = My = 1`, outside of the middle. -/
theorem side {rx mx ly v d e p e2 p2 σ : ℝ} (hv0 : Scalar.eps < v) (hv : v ≤ ly) (hm : mx ≠ 0) (xv : Ex v)
    (xd : B64.round (.fin (1 - v)) = fin d) (xe : B64.round (.fin (1 / mx)) = fin e) (xp : Scalar.pow (fin d) (fin e) = fin p)
    (xr : Ex (rx * p)) (xm : Ex (1 - mx)) (xe2 : B64.round (.fin ((1 - mx) / mx)) = fin e2)
    (xp2 : Scalar.pow (fin d) (fin e2) = fin p2) (hσ : σ = 1 ∨ σ = -1) (x1 : Ex (-σ * p2)) (x2 : Ex (-σ * p2 * v))
    (x3 : Ex (-σ * p2 * v * rx)) (x4 : Ex (mx * v)) (x5 : Ex (-σ * p2 * v * rx / (mx * v))) :
    (Shape.surfaceRadius (⟨fin rx, fin mx, fin 1, fin 1, fin ly⟩ : Shape B64) (fin (σ * v)) = .ok (fin (rx * p))) ∧
    ∃ a, Shape.surfaceAngle (⟨fin rx, fin mx, fin 1, fin 1, fin ly⟩ : Shape B64) (fin (σ * v)) Scalar.eps = .ok (fin a) := by
  have hp := real_eps_pos
  have hvp : 0 < v := hp.trans hv0
  have habs : |σ * v| = v := by rcases hσ with rfl | rfl <;> simp [abs_of_pos hvp]
  have chk : Shape.checkWidthBound (⟨fin rx, fin mx, fin 1, fin 1, fin ly⟩ : Shape B64) (fin (σ * v)) = true := by
    simp [Shape.checkWidthBound, DoubleDemo.abs_fin, habs, hv]
  have hq : Scalar.abs (fin (σ * v)) /. fin 1 = fin v := by
    rw [DoubleDemo.abs_fin, habs, div_fin _ one_ne_zero, div_one, xv]
  have hpw : Scalar.pow (fin v) (fin 1) = fin v := by rw [pow_fin (.inl hvp), Real.rpow_one, xv]
  have hd : fin 1 -. fin v = fin d := by rw [sub_fin, xd]
  constructor
  · simp only [Shape.surfaceRadius, chk, Res.assert, if_true, Res.bind_ok, Res.pure_eq]
    rw [hq, hpw, B64.one_eq, hd, div_fin _ hm, xe, xp, mul_fin, xr]
  · obtain ⟨a, ha⟩ := atan_ok (-σ * p2 * v * rx / (mx * v))
    refine ⟨a, ?_⟩
    have he : ((Scalar.eps : B64) <. Scalar.abs (fin (σ * v))) = true := by
      rw [DoubleDemo.abs_fin, show (Scalar.eps : B64) = fin Scalar.eps from rfl, lt_fin, habs]
      simpa using hv0
    have hs : ((if (Scalar.zero : B64) <. fin (σ * v) then one else Scalar.zero) -.
        (if fin (σ * v) <. (Scalar.zero : B64) then one else Scalar.zero) : B64) = fin σ := by
      rw [B64.zero_eq, B64.one_eq, lt_fin, lt_fin]
      rcases hσ with rfl | rfl
      · simp only [one_mul, hvp, not_lt.2 hvp.le, decide_true, decide_false, if_true, if_false, Bool.false_eq_true]
        rw [sub_fin, sub_zero, DoubleDemo.r1]
      · simp only [neg_mul, one_mul, Left.neg_neg_iff, Left.neg_pos_iff, hvp, not_lt.2 hvp.le, decide_true,
          decide_false, if_true, if_false, Bool.false_eq_true]
        rw [sub_fin, zero_sub, rd (-1) 0 (by norm_num)]
    simp only [Shape.surfaceAngle, Shape.surfaceDerivative, chk, Res.assert, if_true, Res.bind_ok, Res.pure_eq, he, hs]
    have hyv : fin σ *. fin (σ * v) = fin v := by
      rw [mul_fin, show σ * (σ * v) = v by rcases hσ with rfl | rfl <;> ring, xv]
    rw [hyv, div_fin _ one_ne_zero, div_one, xv, hpw, B64.one_eq, hd, sub_fin, xm, div_fin _ hm, xe2, xp2, DoubleDemo.neg_fin,
      mul_fin, x1, mul_fin, x2, mul_fin, x3, mul_fin, mul_one, x3, mul_fin, x4, div_fin _ (mul_ne_zero hm hvp.ne'), x5, ha]

end Param

/-- **The exponent `Mx` may be NaN.**  A tyre with one rib is built: `pow(1, NaN)` is `1`, and the derivative is not
computed in the middle. -/
theorem C120_exponent_refuted (fresh : Nat → Output B64) :
    ∃ s, Shell.make fresh 1 (fin 1) ⟨.nan⟩ (fin 1) (fin 2) (fin (1 / 2)) = .ok s ∧
      s.ribs = [Rib.make 0 (fin 1) (fin 0) (fin 1) (fin 0)] := by
  refine Param.middle ?_ ?_ (DoubleDemo.eq_fin 1) fresh
  · have e : (one : B64) /. ⟨.nan⟩ = ⟨.nan⟩ := by rw [B64.one_eq]; rfl
    have e2 : Scalar.pow (fin 1) (⟨.nan⟩ : B64) = fin 1 := by
      show B64.round (Scalar.pow (XR.fin 1) XR.nan) = _
      rw [XR.one_pow, DoubleDemo.r1]
    rw [e, e2, mul_fin, mul_one, DoubleDemo.r1]
  · rw [B64.zero_eq, lt_fin]; simp

/-- **The radius may be infinite.** -/
theorem C120_infinite_refuted (fresh : Nat → Output B64) :
    ∃ s, Shell.make fresh 1 ⟨.pinf⟩ (fin 2) (fin 1) (fin 2) (fin (1 / 2)) = .ok s ∧
      s.ribs = [Rib.make 0 ⟨.pinf⟩ (fin 0) (fin 1) (fin 0)] := by
  refine Param.middle ?_ (by rw [B64.zero_eq]; rfl) rfl fresh
  have e2 : Scalar.pow (fin 1) ((one : B64) /. fin 2) = fin 1 := by
    show B64.round (Scalar.pow (XR.fin 1) _) = _
    rw [XR.one_pow, DoubleDemo.r1]
  rw [e2]
  show B64.round (XR.infSign 1) = _
  rw [XR.infSign, if_pos one_pos]; rfl

/-- **The width may be NaN.**  With an infinite exponent `Mx` a tyre of any number of ribs is built whose width is NaN: all its
ribs are nowhere, have the radius `Rx` and the width NaN. -/
theorem C120_width_refuted (fresh : Nat → Output B64) (n : Nat) (hn : n ≠ 0) :
    ∃ s, Shell.make fresh n (fin 1) ⟨.pinf⟩ (fin 1) (fin 2) ⟨.nan⟩ = .ok s ∧ s.ribs.length = n ∧
      ∀ r ∈ s.ribs, r.radius = fin 1 ∧ r.y = ⟨.nan⟩ ∧ r.width = ⟨.nan⟩ := by
  have key : ∀ (k i : Nat) (y : B64) (acc : List (Rib B64)),
      (∀ r ∈ acc, r.radius = fin 1 ∧ r.y = ⟨.nan⟩ ∧ r.width = ⟨.nan⟩) →
      ∃ l, Shell.resizeLoop (⟨fin 1, ⟨.pinf⟩, fin 1, fin 2, ⟨.nan⟩⟩ : Shape B64) ⟨.nan⟩ k i y acc = .ok l () ∧
        l.length = acc.length + k ∧ ∀ r ∈ l, r.radius = fin 1 ∧ r.y = ⟨.nan⟩ ∧ r.width = ⟨.nan⟩ := by
    intro k
    induction k with
    | zero => exact fun i y acc h => ⟨acc, rfl, rfl, h⟩
    | succ k ih =>
      intro i y acc h
      have chk : Shape.checkWidthBound (⟨fin 1, ⟨.pinf⟩, fin 1, fin 2, ⟨.nan⟩⟩ : Shape B64) ⟨.nan⟩ = true := rfl
      have hz : y +. (⟨.nan⟩ : B64) = ⟨.nan⟩ := by
        show B64.round (y.val +. XR.nan) = _
        rw [XR.add_nan]; rfl
      rw [Param.step (z := ⟨.nan⟩) (r := fin 1) (a := fin 0) hz]
      · obtain ⟨l, h1, h2, h3⟩ := ih (i + 1) ⟨.nan⟩ (acc ++ [Rib.make i (fin 1) ⟨.nan⟩ ⟨.nan⟩ (fin 0)]) (by
          intro r hr
          rcases List.mem_append.1 hr with h' | h'
          · exact h r h'
          · rw [List.mem_singleton.1 h']; exact ⟨rfl, rfl, rfl⟩)
        refine ⟨l, h1, ?_, h3⟩
        rw [h2, List.length_append, List.length_singleton]; omega
      · simp only [Shape.surfaceRadius, chk, Res.assert, if_true, Res.bind_ok, Res.pure_eq]
        have e1 : (one : B64) /. ⟨.pinf⟩ = fin 0 := by
          rw [B64.one_eq]
          show B64.round (.fin 0) = _
          exact DoubleDemo.r0
        have e2 : ∀ a : B64, Scalar.pow a (fin 0) = fin 1 := fun a => by
          show B64.round (XR.pow a.val (.fin 0)) = _
          unfold XR.pow
          rw [if_pos (.inl rfl), DoubleDemo.r1]
        rw [e1, e2, mul_fin, mul_one, DoubleDemo.r1]
      · have he : ((Scalar.eps : B64) <. Scalar.abs ⟨.nan⟩) = false := rfl
        simp only [Shape.surfaceAngle, Shape.surfaceDerivative, chk, Res.assert, if_true, Res.bind_ok, Res.pure_eq, he]
        rw [if_neg Bool.false_ne_true, Res.bind_ok, B64.zero_eq, DoubleDemo.atan0]
      · rw [B64.zero_eq, lt_fin]; simp
      · exact DoubleDemo.eq_fin 1
      · exact DoubleDemo.eq_fin 0
  obtain ⟨l, h1, h2, h3⟩ := key n 0 ⟨.nan⟩ [] (by simp)
  have hw : two *. (⟨.nan⟩ : B64) /. Scalar.ofNat n = ⟨.nan⟩ := by
    rw [DoubleDemo.two_eq]
    show B64.round (XR.nan /. _) = _
    rw [XR.nan_div]; rfl
  obtain ⟨s, e, hs, -⟩ := Param.build fresh hn hw (y := ⟨.nan⟩) rfl h1
  refine ⟨s, e, ?_, ?_⟩ <;> rw [hs]
  · simpa using h2
  · exact h3

/-- **The largest radius may be negative**: outside `|y| ≤ Ry` the base of the outer power is negative, too. -/
theorem C120_negative_refuted (fresh : Nat → Output B64) :
    ∃ s, Shell.make fresh 2 (fin (-1)) (fin 1) (fin 1) (fin 1) (fin 3) = .ok s ∧ s.ribs.length = 2 ∧
      ∀ r ∈ s.ribs, r.radius = fin (1 / 2) := by
  have pz : ∀ x : ℝ, Scalar.pow (fin x) (fin 0) = fin 1 := fun x => by
    show B64.round (XR.pow (.fin x) (.fin 0)) = _
    unfold XR.pow
    rw [if_pos (.inl rfl), DoubleDemo.r1]
  have po : Scalar.pow (fin (-(1 / 2))) (fin 1) = fin (-(1 / 2)) := by
    show B64.round (XR.pow (.fin _) (.fin 1)) = _
    unfold XR.pow
    rw [if_neg (by rintro (h | h) <;> injection h with h <;> norm_num at h)]
    dsimp only
    rw [if_neg (by norm_num), if_neg (by rintro ⟨-, h⟩; exact h ⟨1, by norm_num⟩), Real.rpow_one, Param.rd (-1) (-1) (by norm_num)]
  have hs : ∀ σ : ℝ, σ = 1 ∨ σ = -1 → _ := fun σ hσ => Param.side (rx := -1) (mx := 1) (ly := 3) (v := 3 / 2)
    (d := -(1 / 2)) (e := 1) (p := -(1 / 2)) (e2 := 0) (p2 := 1) (σ := σ)
    (lt_trans (show (Scalar.eps : ℝ) < 1 by rw [real_eps]; norm_num) (by norm_num)) (by norm_num) one_ne_zero
    (Param.rd 3 (-1) (by norm_num)) (by rw [Param.rd (-1) (-1) (by norm_num)]; norm_num)
    (by rw [div_one, DoubleDemo.r1]) po (Param.rd 1 (-1) (by norm_num)) (Param.rd 0 0 (by norm_num))
    (by rw [Param.rd 0 0 (by norm_num)]; norm_num) (pz _) hσ
    (by rcases hσ with rfl | rfl; exacts [Param.rd (-1) 0 (by norm_num), Param.rd 1 0 (by norm_num)])
    (by rcases hσ with rfl | rfl; exacts [Param.rd (-3) (-1) (by norm_num), Param.rd 3 (-1) (by norm_num)])
    (by rcases hσ with rfl | rfl; exacts [Param.rd 3 (-1) (by norm_num), Param.rd (-3) (-1) (by norm_num)])
    (Param.rd 3 (-1) (by norm_num))
    (by rcases hσ with rfl | rfl; exacts [Param.rd 1 0 (by norm_num), Param.rd (-1) 0 (by norm_num)])
  obtain ⟨hr1, a1, ha1⟩ := hs (-1) (.inr rfl)
  obtain ⟨hr2, a2, ha2⟩ := hs 1 (.inl rfl)
  rw [show (-1 * -(1 / 2) : ℝ) = 1 / 2 by norm_num] at hr1 hr2
  have hz : ((Scalar.zero : B64) <. fin (1 / 2)) = true := by rw [B64.zero_eq, lt_fin]; norm_num
  obtain ⟨s, e, hl, -⟩ := Param.build fresh (rx := fin (-1)) (mx := fin 1) (ry := fin 1) (my := fin 1) (ly := fin 3)
    two_ne_zero (w := fin 3) (y := fin (-(9 / 2)))
    (by rw [DoubleDemo.two_eq, Param.nat2, mul_fin, Param.rd 6 0 (by norm_num), div_fin _ two_ne_zero,
          show (2 * 3 / 2 : ℝ) = 3 by norm_num, Param.rd 3 0 (by norm_num)])
    (by rw [DoubleDemo.two_eq, div_fin _ two_ne_zero, Param.rd 3 (-1) (by norm_num), DoubleDemo.neg_fin, sub_fin,
          show (-3 - 3 / 2 : ℝ) = -(9 / 2) by norm_num, Param.rd (-9) (-1) (by norm_num)])
    ((Param.step (k := 1) (by rw [add_fin, show (-(9 / 2) + 3 : ℝ) = -1 * (3 / 2) by norm_num, Param.rd (-3) (-1) (by norm_num)])
      hr1 ha1 hz (DoubleDemo.eq_fin _) (DoubleDemo.eq_fin _)).trans
     ((Param.step (k := 0) (by rw [add_fin, show (-1 * (3 / 2) + 3 : ℝ) = 1 * (3 / 2) by norm_num, Param.rd 3 (-1) (by norm_num)])
      hr2 ha2 hz (DoubleDemo.eq_fin _) (DoubleDemo.eq_fin _)).trans rfl))
  refine ⟨s, e, ?_, ?_⟩ <;> rw [hl]
  · rfl
  · intro r hr
    simp only [List.nil_append, List.cons_append, List.mem_cons, List.not_mem_nil, or_false] at hr
    rcases hr with rfl | rfl <;> rfl

/-- **Ribs may be larger than the largest radius**, and than the bounding box of the tyre: with a negative exponent `Mx` the tyre
grows to its sides. -/
theorem C120_larger_refuted (fresh : Nat → Output B64) :
    ∃ s, Shell.make fresh 2 (fin 1) (fin (-1)) (fin 1) (fin 1) (fin 1) = .ok s ∧ s.ribs.length = 2 ∧
      (∀ r ∈ s.ribs, r.radius = fin 2) ∧ s.bbox.max = ⟨fin 1, fin 1, fin 1⟩ ∧ s.bbox.min = ⟨fin (-1), fin (-1), fin (-1)⟩ := by
  have pz : ∀ k : ℤ, 1 ≤ k → k ≤ 4 → Scalar.pow (fin (1 / 2)) (fin (-k)) = fin (2 ^ k) := fun k h1 h4 => by
    rw [pow_fin (.inl (by norm_num))]
    have : ((1 / 2 : ℝ)) ^ (-(k : ℝ)) = 2 ^ k := by
      rw [Real.rpow_neg (by norm_num), Real.rpow_intCast, one_div, inv_zpow, inv_inv]
    rw [this, Param.rd 1 k (by simp) (by norm_num) (by omega) (by omega)]
  have p1 := pz 1 (by norm_num) (by norm_num)
  have p2 := pz 2 (by norm_num) (by norm_num)
  norm_num at p1 p2
  have hs : ∀ σ : ℝ, σ = 1 ∨ σ = -1 → _ := fun σ hσ => Param.side (rx := 1) (mx := -1) (ly := 1) (v := 1 / 2)
    (d := 1 / 2) (e := -1) (p := 2) (e2 := -2) (p2 := 4) (σ := σ)
    (lt_of_lt_of_le (show (Scalar.eps : ℝ) < 1 / 2 by rw [real_eps]; norm_num) (by norm_num)) (by norm_num) (by norm_num)
    (Param.rd 1 (-1) (by norm_num)) (by rw [Param.rd 1 (-1) (by norm_num)]; norm_num)
    (by rw [Param.rd (-1) 0 (by norm_num)]; norm_num) (by norm_num; exact p1) (Param.rd 2 0 (by norm_num)) (Param.rd 2 0 (by norm_num))
    (by rw [Param.rd (-2) 0 (by norm_num)]; norm_num) (by norm_num; exact p2) hσ
    (by rcases hσ with rfl | rfl; exacts [Param.rd (-4) 0 (by norm_num), Param.rd 4 0 (by norm_num)])
    (by rcases hσ with rfl | rfl; exacts [Param.rd (-2) 0 (by norm_num), Param.rd 2 0 (by norm_num)])
    (by rcases hσ with rfl | rfl; exacts [Param.rd (-2) 0 (by norm_num), Param.rd 2 0 (by norm_num)])
    (Param.rd (-1) (-1) (by norm_num))
    (by rcases hσ with rfl | rfl; exacts [Param.rd 4 0 (by norm_num), Param.rd (-4) 0 (by norm_num)])
  obtain ⟨hr1, a1, ha1⟩ := hs (-1) (.inr rfl)
  obtain ⟨hr2, a2, ha2⟩ := hs 1 (.inl rfl)
  rw [one_mul] at hr1
  rw [one_mul, one_mul] at hr2
  rw [one_mul] at ha2
  have hz : ((Scalar.zero : B64) <. fin 2) = true := by rw [B64.zero_eq, lt_fin]; norm_num
  obtain ⟨s, e, hl, -, hb⟩ := Param.build fresh (rx := fin 1) (mx := fin (-1)) (ry := fin 1) (my := fin 1) (ly := fin 1)
    two_ne_zero (w := fin 1) (y := fin (-(3 / 2)))
    (by rw [DoubleDemo.two_eq, Param.nat2, mul_fin, Param.rd 2 0 (by norm_num), div_fin _ two_ne_zero,
          show (2 * 1 / 2 : ℝ) = 1 by norm_num, DoubleDemo.r1])
    (by rw [DoubleDemo.two_eq, div_fin _ two_ne_zero, Param.rd 1 (-1) (by norm_num), DoubleDemo.neg_fin, sub_fin,
          show (-1 - 1 / 2 : ℝ) = -(3 / 2) by norm_num, Param.rd (-3) (-1) (by norm_num)])
    ((Param.step (k := 1) (by rw [add_fin, show (-(3 / 2) + 1 : ℝ) = -1 * (1 / 2) by norm_num, Param.rd (-1) (-1) (by norm_num)])
      hr1 ha1 hz (DoubleDemo.eq_fin _) (DoubleDemo.eq_fin _)).trans
     ((Param.step (k := 0) (by rw [add_fin, show (-1 * (1 / 2) + 1 : ℝ) = 1 / 2 by norm_num, Param.rd 1 (-1) (by norm_num)])
      hr2 ha2 hz (DoubleDemo.eq_fin _) (DoubleDemo.eq_fin _)).trans rfl))
  refine ⟨s, e, ?_, ?_, ?_, ?_⟩
  · rw [hl]; rfl
  · rw [hl]
    intro r hr
    simp only [List.nil_append, List.cons_append, List.mem_cons, List.not_mem_nil, or_false] at hr
    rcases hr with rfl | rfl <;> rfl
  all_goals
    have e1 : (fin 0 -. fin 1 : B64) = fin (-1) := by rw [sub_fin, zero_sub, Param.rd (-1) 0 (by norm_num)]
    have e2 : (fin 0 +. fin 1 : B64) = fin 1 := by rw [add_fin, zero_add, DoubleDemo.r1]
    have e3 : Box.order1 (fin (-1) : B64) (fin 1) = (fin (-1), fin 1) := by
      unfold Box.order1
      rw [lt_fin, if_neg (by norm_num)]
    rw [hb]
    simp only [Shell.updateBBox, Shape.surfaceMaxRadius, V3.sub, V3.add, Affine.id, V3.zeros, B64.zero_eq,
      Box.updateMaxMin, e1, e2, e3]

/-- A tyre that meets the hypotheses of `C120_partial`. -/
example (fresh : Nat → Output B64) : ∃ s, (0 : ℝ) < 1 ∧ (1 : ℝ) ≤ 2 ^ 1000 ∧ (fin 2 : B64) ≠ fin 0 ∧
    Shell.make fresh 1 (fin 1) (fin 1) (fin 1) (fin 2) (fin 1) = .ok s := by
  obtain ⟨s, h, -⟩ := DoubleDemo.shell fresh
  refine ⟨s, one_pos, one_le_pow₀ (by norm_num), ?_, h⟩
  intro e
  have := congrArg B64.val e
  injection this with h
  norm_num at h

/-- A tyre that meets the hypothesis of `C120_exponent_partial`. -/
example (fresh : Nat → Output B64) : ∃ s, Shell.make fresh 1 (fin 1) ⟨.nan⟩ (fin 1) (fin 2) (fin (1 / 2)) = .ok s := by
  obtain ⟨s, h, -⟩ := C120_exponent_refuted fresh
  exact ⟨s, h⟩

end Enve
