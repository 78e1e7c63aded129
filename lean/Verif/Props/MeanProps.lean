import Verif.Lemmas.Mean
import Verif.Spec.Mean

/-! # C112: the averages over the ribs, computed in doubles -/

namespace Enve
open Scalar Spec B64

namespace Mean

theorem lt_eps {x : ℝ} : (fin x <. (Scalar.eps : B64)) = decide (x < 1 / 2 ^ 26) := by
  rw [show (Scalar.eps : B64) = fin ((2 : ℝ)⁻¹ ^ 26) from rfl, lt_fin]
  norm_num

/-- One average, of either kind. -/
theorem scalar {n : Nat} (h1 : 1 ≤ n) (hn : n ≤ 2 ^ 20) {v x : Nat → ℝ} {tv t u : Nat → B64} (hv : ∀ i < n, 0 ≤ v i)
    (htv : ∀ i < n, tv i = fin (v i)) (hV : total n v ≤ 2 ^ 60) {V' : ℝ} (hV' : ribSum n tv = fin V')
    (ht : ∀ i < n, t i = fin (near (x i * v i))) (hu : ∀ i < n, u i = fin (x i)) {B : ℝ} (hB : ∀ i < n, |x i| ≤ B)
    (hB0 : 1 / 2 ^ 100 ≤ B) (hB1 : B ≤ 2 ^ 100) :
    ∃ r, (if ribSum n tv <. (Scalar.eps : B64) then ribSum n u /. Scalar.ofNat n else ribSum n t /. ribSum n tv) = fin r ∧
      |r - mean (1 / 2 ^ 26 ≤ V') n v x| ≤ n * B / 2 ^ 50 := by
  by_cases hc : V' < 1 / 2 ^ 26
  · have e : (ribSum n tv <. (Scalar.eps : B64)) = true := by rw [hV', lt_eps]; exact decide_eq_true hc
    rw [if_pos e, mean, if_neg (not_le.2 hc)]
    exact plain h1 hn hu hB hB0 hB1
  · have e : (ribSum n tv <. (Scalar.eps : B64)) = false := by rw [hV', lt_eps]; exact decide_eq_false hc
    rw [e, if_neg (by simp), mean, if_pos (not_lt.1 hc)]
    exact (weighted h1 hn hv htv ht hB hB0 hB1 hV e).2

theorem mul_near {x v B V : ℝ} (hx : |x| ≤ B) (hB : B ≤ 2 ^ 100) (hv : 0 ≤ v) (hV : v ≤ V) (hV' : V ≤ 2 ^ 60) :
    fin x *. fin v = fin (near (x * v)) ∧ fin v *. fin x = fin (near (x * v)) := by
  have : |x * v| ≤ 2 ^ 160 := by
    rw [abs_mul, abs_of_nonneg hv]
    calc |x| * v ≤ 2 ^ 100 * 2 ^ 60 := mul_le_mul (hx.trans hB) (hV.trans hV') hv (by norm_num)
      _ = _ := by norm_num
  rw [mul_fin, mul_fin, mul_comm v x, round_near (by norm_num) this]
  exact ⟨rfl, rfl⟩

end Mean

/-- **C112.**  A shell whose records are doubles, with volumes that are not negative: the total volume is right up to the part
`n 2⁻⁵²` of it, and friction, contact point and (when the volume reaches the threshold) depth are the averages of the records up to
the part `n 2⁻⁵⁰` of their largest size, where `n` is the number of ribs.  The averages are those weighted with the volumes exactly if
the computed volume is at least `2⁻²⁶`. -/
theorem C112_average {pol : Policy} {s : Shell B64} {o : Nat → Output B64} (h : Reports pol s o) (h1 : 1 ≤ s.size)
    (hn : s.size ≤ 2 ^ 20) {v : Nat → ℝ} (hv : ∀ i < s.size, Stored (o i).volume (v i) ∧ 0 ≤ v i) (hV : total s.size v ≤ 2 ^ 60)
    {B : ℝ} (hB0 : 1 / 2 ^ 100 ≤ B) (hB1 : B ≤ 2 ^ 100) :
    ∃ V', s.contactVolume pol = .ok (fin V') ∧ |V' - total s.size v| ≤ s.size * total s.size v / 2 ^ 52 + 1 / 2 ^ 229 ∧
      (∀ f : Nat → ℝ, (∀ i < s.size, Stored (o i).friction (f i) ∧ |f i| ≤ B) →
        ∃ r, s.contactFriction pol = .ok (fin r) ∧ |r - mean (1 / 2 ^ 26 ≤ V') s.size v f| ≤ s.size * B / 2 ^ 50) ∧
      (∀ p : Nat → V3 ℝ, (∀ i < s.size, Stored3 (o i).point (p i) ∧ Upto B (p i)) →
        ∃ r : V3 ℝ, s.contactPoint pol = .ok ⟨fin r.x, fin r.y, fin r.z⟩ ∧
          |r.x - mean (1 / 2 ^ 26 ≤ V') s.size v (fun i => (p i).x)| ≤ s.size * B / 2 ^ 50 ∧
          |r.y - mean (1 / 2 ^ 26 ≤ V') s.size v (fun i => (p i).y)| ≤ s.size * B / 2 ^ 50 ∧
          |r.z - mean (1 / 2 ^ 26 ≤ V') s.size v (fun i => (p i).z)| ≤ s.size * B / 2 ^ 50) ∧
      (1 / 2 ^ 26 ≤ V' → ∀ d : Nat → ℝ, (∀ i < s.size, Stored (o i).depth (d i) ∧ |d i| ≤ B) →
        ∃ r, s.contactDepth pol = .ok (fin r) ∧ |r - mean (1 / 2 ^ 26 ≤ V') s.size v d| ≤ s.size * B / 2 ^ 50) := by
  have hv0 : ∀ i < s.size, 0 ≤ v i := fun i hi => (hv i hi).2
  have hvle : ∀ i < s.size, v i ≤ total s.size v := fun i hi =>
    Finset.single_le_sum (fun j hj => hv0 j (Finset.mem_range.1 hj)) (Finset.mem_range.2 hi)
  have hvs : ∀ i < s.size, (o i).volume = fin (v i) := fun i hi => (hv i hi).1
  have habs : ∑ i ∈ Finset.range s.size, |v i| = total s.size v :=
    Finset.sum_congr rfl fun i hi => abs_of_nonneg (hv0 i (Finset.mem_range.1 hi))
  obtain ⟨V', e1, e2⟩ := Mean.sum_close hn hvs habs.le (hV.trans (by norm_num))
  have hnr : (s.size : ℝ) ≤ 2 ^ 20 := by exact_mod_cast hn
  have hr := Shell.records_of_reports h
  have hvol : s.contactVolume pol = .ok (ribSum s.size fun i => (o i).volume) := by
    rw [Shell.contactVolume, hr, Res.bind_ok, Res.pure_eq, Shell.foldl_range o (·.volume)]
  have hm : ∀ {x : Nat → ℝ}, (∀ i < s.size, |x i| ≤ B) → ∀ i < s.size,
      fin (x i) *. fin (v i) = fin (near (x i * v i)) ∧ fin (v i) *. fin (x i) = fin (near (x i * v i)) :=
    fun hx i hi => Mean.mul_near (hx i hi) hB1 (hv0 i hi) (hvle i hi) hV
  refine ⟨V', by rw [hvol, e1], ?_, fun f hf => ?_, fun p hp => ?_, fun hh d hd => ?_⟩
  · refine e2.trans ?_
    have : 2 * (s.size : ℝ) * (1 / 2 ^ 250) ≤ 1 / 2 ^ 229 := by
      calc 2 * (s.size : ℝ) * (1 / 2 ^ 250) ≤ 2 * 2 ^ 20 * (1 / 2 ^ 250) :=
            mul_le_mul_of_nonneg_right (by linarith) (by norm_num)
        _ = 1 / 2 ^ 229 := by norm_num
    calc 2 * s.size * (total s.size v / 2 ^ 53 + 1 / 2 ^ 250) =
          s.size * total s.size v / 2 ^ 52 + 2 * s.size * (1 / 2 ^ 250) := by ring
      _ ≤ _ := by linarith
  · have hx : ∀ i < s.size, |f i| ≤ B := fun i hi => (hf i hi).2
    obtain ⟨r, k1, k2⟩ := Mean.scalar h1 hn hv0 hvs hV e1 (t := fun i => (o i).friction *. (o i).volume)
      (u := fun i => (o i).friction) (fun i hi => by rw [(hf i hi).1, hvs i hi]; exact (hm hx i hi).1)
      (fun i hi => (hf i hi).1) hx hB0 hB1
    refine ⟨r, ?_, k2⟩
    rw [Shell.contactFriction, hvol, hr, Res.bind_ok, Res.bind_ok, ← k1, Shell.foldl_range o (·.friction),
      Shell.foldl_range o fun o => o.friction *. o.volume]
    split <;> rfl
  · have key : ∀ (c : V3 B64 → B64) (x : Nat → ℝ), (∀ i < s.size, c (o i).point = fin (x i)) → (∀ i < s.size, |x i| ≤ B) →
        ∃ r, (if (ribSum s.size fun i => (o i).volume) <. (Scalar.eps : B64) then
            (ribSum s.size fun i => c (o i).point) /. Scalar.ofNat s.size
          else (ribSum s.size fun i => (o i).volume *. c (o i).point) /. (ribSum s.size fun i => (o i).volume)) = fin r ∧
          |r - mean (1 / 2 ^ 26 ≤ V') s.size v x| ≤ s.size * B / 2 ^ 50 := fun c x hc hx =>
      Mean.scalar h1 hn hv0 hvs hV e1 (t := fun i => (o i).volume *. c (o i).point) (u := fun i => c (o i).point)
        (fun i hi => by rw [hc i hi, hvs i hi]; exact (hm hx i hi).2) hc hx hB0 hB1
    obtain ⟨x, x1, x2⟩ := key (·.x) (fun i => (p i).x) (fun i hi => (hp i hi).1.1) (fun i hi => (hp i hi).2.x)
    obtain ⟨y, y1, y2⟩ := key (·.y) (fun i => (p i).y) (fun i hi => (hp i hi).1.2.1) (fun i hi => (hp i hi).2.y)
    obtain ⟨z, z1, z2⟩ := key (·.z) (fun i => (p i).z) (fun i hi => (hp i hi).1.2.2) (fun i hi => (hp i hi).2.z)
    refine ⟨⟨x, y, z⟩, ?_, x2, y2, z2⟩
    rw [Shell.contactPoint, hvol, hr, Res.bind_ok, Res.bind_ok, Shell.foldl_range3 o (·.point),
      Shell.foldl_range3 o fun o => V3.smul o.volume o.point]
    dsimp only
    rw [← x1, ← y1, ← z1]
    split <;> rfl
  · have hx : ∀ i < s.size, |d i| ≤ B := fun i hi => (hd i hi).2
    obtain ⟨r, k1, k2⟩ := Mean.scalar h1 hn hv0 hvs hV e1 (t := fun i => (o i).depth *. (o i).volume)
      (u := fun i => (o i).depth) (fun i hi => by rw [(hd i hi).1, hvs i hi]; exact (hm hx i hi).1)
      (fun i hi => (hd i hi).1) hx hB0 hB1
    refine ⟨r, ?_, k2⟩
    have e : ((ribSum s.size fun i => (o i).volume) <. (Scalar.eps : B64)) = false := by
      rw [e1, Mean.lt_eps]; exact decide_eq_false (not_lt.2 hh)
    rw [e, if_neg (by simp)] at k1
    rw [Shell.contactDepth, hvol, hr, Res.bind_ok, Res.bind_ok, ← k1, e, if_neg (by simp),
      Shell.foldl_range o fun o => o.depth *. o.volume]
    rfl

theorem Mean.mean_bounds {b : Prop} [Decidable b] {n : Nat} (h1 : 1 ≤ n) {v x : Nat → ℝ} (hv : ∀ i < n, 0 ≤ v i) (hb : b → 0 < total n v)
    {lo hi : ℝ} (hx : ∀ i < n, lo ≤ x i ∧ x i ≤ hi) : lo ≤ mean b n v x ∧ mean b n v x ≤ hi := by
  have hn : (0 : ℝ) < n := by exact_mod_cast h1
  unfold mean
  split
  · rename_i h
    have hp := hb h
    rw [le_div_iff₀ hp, div_le_iff₀ hp]
    unfold total
    rw [Finset.mul_sum, Finset.mul_sum]
    constructor <;> refine Finset.sum_le_sum fun i hi => ?_
    · have := hv i (Finset.mem_range.1 hi); nlinarith [(hx i (Finset.mem_range.1 hi)).1]
    · have := hv i (Finset.mem_range.1 hi); nlinarith [(hx i (Finset.mem_range.1 hi)).2]
  · rw [le_div_iff₀ hn, div_le_iff₀ hn]
    unfold total
    have e : ∀ c : ℝ, c * n = ∑ i ∈ Finset.range n, c := fun c => by simp [mul_comm]
    rw [e, e]
    exact ⟨Finset.sum_le_sum fun i hi => (hx i (Finset.mem_range.1 hi)).1,
      Finset.sum_le_sum fun i hi => (hx i (Finset.mem_range.1 hi)).2⟩

/-- **C112, the range.**  The friction reported for the shell lies between the smallest and the largest friction of its ribs, up to the
rounding errors; so do the coordinates of the contact point and the depth. -/
theorem C112_range {pol : Policy} {s : Shell B64} {o : Nat → Output B64} (h : Reports pol s o) (h1 : 1 ≤ s.size)
    (hn : s.size ≤ 2 ^ 20) {v : Nat → ℝ} (hv : ∀ i < s.size, Stored (o i).volume (v i) ∧ 0 ≤ v i) (hV : total s.size v ≤ 2 ^ 60)
    {B : ℝ} (hB0 : 1 / 2 ^ 100 ≤ B) (hB1 : B ≤ 2 ^ 100) {lo hi : ℝ} :
    let e := s.size * B / 2 ^ 50
    (∀ f : Nat → ℝ, (∀ i < s.size, Stored (o i).friction (f i) ∧ |f i| ≤ B ∧ lo ≤ f i ∧ f i ≤ hi) →
      ∃ r, s.contactFriction pol = .ok (fin r) ∧ lo - e ≤ r ∧ r ≤ hi + e) ∧
    (∀ p : Nat → V3 ℝ, (∀ i < s.size, Stored3 (o i).point (p i) ∧ Upto B (p i) ∧ lo ≤ (p i).z ∧ (p i).z ≤ hi) →
      ∃ r : V3 ℝ, s.contactPoint pol = .ok ⟨fin r.x, fin r.y, fin r.z⟩ ∧ lo - e ≤ r.z ∧ r.z ≤ hi + e) ∧
    (1 / 2 ^ 25 ≤ total s.size v → ∀ d : Nat → ℝ, (∀ i < s.size, Stored (o i).depth (d i) ∧ |d i| ≤ B ∧ lo ≤ d i ∧ d i ≤ hi) →
      ∃ r, s.contactDepth pol = .ok (fin r) ∧ lo - e ≤ r ∧ r ≤ hi + e) := by
  intro e
  obtain ⟨V', -, hV', k1, k2, k3⟩ := C112_average h h1 hn hv hV hB0 hB1
  have hv0 : ∀ i < s.size, 0 ≤ v i := fun i hi => (hv i hi).2
  have ht0 : 0 ≤ total s.size v := Finset.sum_nonneg fun i hi => hv0 i (Finset.mem_range.1 hi)
  have hnr : (s.size : ℝ) ≤ 2 ^ 20 := by exact_mod_cast hn
  have herr : s.size * total s.size v / 2 ^ 52 ≤ total s.size v / 2 ^ 32 := by
    rw [div_le_div_iff₀ (by norm_num) (by norm_num)]; nlinarith
  obtain ⟨l1, l2⟩ := abs_le.1 hV'
  have hpos : 1 / 2 ^ 26 ≤ V' → 0 < total s.size v := by
    intro hh
    by_contra hc
    have : total s.size v = 0 := le_antisymm (not_lt.1 hc) ht0
    rw [this] at l2 herr
    norm_num at l2 hh
    linarith
  have fin' : ∀ {r m : ℝ}, |r - m| ≤ e → lo ≤ m ∧ m ≤ hi → lo - e ≤ r ∧ r ≤ hi + e := by
    intro r m h1 h2
    obtain ⟨a, b⟩ := abs_le.1 h1
    exact ⟨by linarith, by linarith⟩
  refine ⟨fun f hf => ?_, fun p hp => ?_, fun hh d hd => ?_⟩
  · obtain ⟨r, e1, e2⟩ := k1 f fun i hi => ⟨(hf i hi).1, (hf i hi).2.1⟩
    exact ⟨r, e1, fin' e2 (Mean.mean_bounds h1 hv0 hpos fun i hi => (hf i hi).2.2)⟩
  · obtain ⟨r, e1, -, -, e2⟩ := k2 p fun i hi => ⟨(hp i hi).1, (hp i hi).2.1⟩
    exact ⟨r, e1, fin' e2 (Mean.mean_bounds h1 hv0 hpos fun i hi => (hp i hi).2.2)⟩
  · have hV26 : 1 / 2 ^ 26 ≤ V' := by norm_num at hh l1 herr ⊢; linarith
    obtain ⟨r, e1, e2⟩ := k3 hV26 d fun i hi => ⟨(hd i hi).1, (hd i hi).2.1⟩
    exact ⟨r, e1, fin' e2 (Mean.mean_bounds h1 hv0 hpos fun i hi => (hd i hi).2.2)⟩

/-- **C112, the normal.**  If the average of the normals of the ribs is at least half a unit long, the contact normal of the shell is
its direction, up to `n 2⁻⁴⁶`. -/
theorem C112_normal {pol : Policy} {s : Shell B64} {o : Nat → Output B64} (h : Reports pol s o) (h1 : 1 ≤ s.size)
    (hn : s.size ≤ 2 ^ 20) {v : Nat → ℝ} (hv : ∀ i < s.size, Stored (o i).volume (v i) ∧ 0 ≤ v i) (hV : total s.size v ≤ 2 ^ 60)
    {N : Nat → V3 ℝ} (hN : ∀ i < s.size, Stored3 (o i).normal (N i) ∧ Upto 2 (N i)) :
    ∃ V', s.contactVolume pol = .ok (fin V') ∧
      let a : V3 ℝ := ⟨mean (1 / 2 ^ 26 ≤ V') s.size v fun i => (N i).x, mean (1 / 2 ^ 26 ≤ V') s.size v fun i => (N i).y,
        mean (1 / 2 ^ 26 ≤ V') s.size v fun i => (N i).z⟩
      (1 / 2 ≤ length3 a → ∃ m, s.contactNormal pol = .ok m ∧
        Close3 (s.size / 2 ^ 46) m ⟨a.x / length3 a, a.y / length3 a, a.z / length3 a⟩) := by
  have hv0 : ∀ i < s.size, 0 ≤ v i := fun i hi => (hv i hi).2
  have hvle : ∀ i < s.size, v i ≤ total s.size v := fun i hi =>
    Finset.single_le_sum (fun j hj => hv0 j (Finset.mem_range.1 hj)) (Finset.mem_range.2 hi)
  have hvs : ∀ i < s.size, (o i).volume = fin (v i) := fun i hi => (hv i hi).1
  have habs : ∑ i ∈ Finset.range s.size, |v i| = total s.size v :=
    Finset.sum_congr rfl fun i hi => abs_of_nonneg (hv0 i (Finset.mem_range.1 hi))
  obtain ⟨V', e1, e2⟩ := Mean.sum_close hn hvs habs.le (hV.trans (by norm_num))
  have hnr : (s.size : ℝ) ≤ 2 ^ 20 := by exact_mod_cast hn
  have hn1 : (1 : ℝ) ≤ s.size := by exact_mod_cast h1
  have hr := Shell.records_of_reports h
  have hvol : s.contactVolume pol = .ok (ribSum s.size fun i => (o i).volume) := by
    rw [Shell.contactVolume, hr, Res.bind_ok, Res.pure_eq, Shell.foldl_range o (·.volume)]
  refine ⟨V', by rw [hvol, e1], ?_⟩
  intro a ha
  have key : ∀ (c : V3 B64 → B64) (x : Nat → ℝ), (∀ i < s.size, c (o i).normal = fin (x i)) → (∀ i < s.size, |x i| ≤ 2) →
      ∃ r, (if (ribSum s.size fun i => (o i).volume) <. (Scalar.eps : B64) then
          (ribSum s.size fun i => c (o i).normal) /. Scalar.ofNat s.size
        else (ribSum s.size fun i => (o i).volume *. c (o i).normal) /. (ribSum s.size fun i => (o i).volume)) = fin r ∧
        |r - mean (1 / 2 ^ 26 ≤ V') s.size v x| ≤ s.size * 2 / 2 ^ 50 := fun c x hc hx =>
    Mean.scalar h1 hn hv0 hvs hV e1 (t := fun i => (o i).volume *. c (o i).normal) (u := fun i => c (o i).normal)
      (fun i hi => by
        rw [hc i hi, hvs i hi]
        exact (Mean.mul_near (hx i hi) (by norm_num) (hv0 i hi) (hvle i hi) hV).2) hc hx (by norm_num) (by norm_num)
  obtain ⟨x, x1, x2⟩ := key (·.x) (fun i => (N i).x) (fun i hi => (hN i hi).1.1) (fun i hi => (hN i hi).2.x)
  obtain ⟨y, y1, y2⟩ := key (·.y) (fun i => (N i).y) (fun i hi => (hN i hi).1.2.1) (fun i hi => (hN i hi).2.y)
  obtain ⟨z, z1, z2⟩ := key (·.z) (fun i => (N i).z) (fun i hi => (hN i hi).1.2.2) (fun i hi => (hN i hi).2.z)
  have h52 : Fine (1 / 2 ^ 52 : ℝ) := ⟨le_rfl, by norm_num⟩
  have e : (s.size : ℝ) * 2 / 2 ^ 50 = 8 * s.size * (1 / 2 ^ 52) := by ring
  rw [e] at x2 y2 z2
  have hA : Close3 (8 * s.size * (1 / 2 ^ 52)) (⟨fin x, fin y, fin z⟩ : V3 B64) a := ⟨⟨x, rfl, x2⟩, ⟨y, rfl, y2⟩, ⟨z, rfl, z2⟩⟩
  have hpos : 1 / 2 ^ 26 ≤ V' → 0 < total s.size v := by
    intro hh
    have ht0 : 0 ≤ total s.size v := Finset.sum_nonneg fun i hi => hv0 i (Finset.mem_range.1 hi)
    by_contra hc
    have h0 : total s.size v = 0 := le_antisymm (not_lt.1 hc) ht0
    have l2 := (abs_le.1 e2).2
    rw [h0, show ∑ i ∈ Finset.range s.size, v i = 0 from h0] at l2
    have : 2 * (s.size : ℝ) * (0 / 2 ^ 53 + 1 / 2 ^ 250) ≤ 2 * 2 ^ 20 * (1 / 2 ^ 250) := by
      rw [zero_div, zero_add]; exact mul_le_mul_of_nonneg_right (by linarith) (by norm_num)
    have h3 := l2.trans this
    norm_num at h3 hh
    linarith
  have bd : ∀ {x : Nat → ℝ}, (∀ i < s.size, |x i| ≤ 2) → |mean (1 / 2 ^ 26 ≤ V') s.size v x| ≤ 2 := by
    intro x hx
    obtain ⟨l, u⟩ := Mean.mean_bounds h1 hv0 hpos (x := x) (lo := -2) (hi := 2) fun i hi => abs_le.1 (hx i hi)
    exact abs_le.2 ⟨l, u⟩
  have hlen : length3 a ≤ 2 ^ 20 := by
    rw [length3]
    refine Real.sqrt_le_iff.2 ⟨by norm_num, ?_⟩
    have q : ∀ {t : ℝ}, |t| ≤ 2 → t ^ 2 ≤ 4 := by
      intro t ht
      have := abs_le.1 ht
      nlinarith
    have h1 : a.x ^ 2 ≤ 4 := q (bd fun i hi => (hN i hi).2.x)
    have h2 : a.y ^ 2 ≤ 4 := q (bd fun i hi => (hN i hi).2.y)
    have h3 : a.z ^ 2 ≤ 4 := q (bd fun i hi => (hN i hi).2.z)
    norm_num
    linarith
  have hp : 0 < length3 a := lt_of_lt_of_le (by norm_num) ha
  have hd : (s.size : ℝ) / length3 a ≤ 2 * s.size := by
    rw [div_le_iff₀ hp]; nlinarith
  have h9 : (1 : ℝ) / 2 ^ 9 / length3 a ≤ 1 := by
    rw [div_le_iff₀ hp]; norm_num at ha ⊢; linarith
  have res := hA.normalized h52 (V3.norm_eq a) (le_trans (by norm_num) ha) hlen (by positivity)
    (by
      have : 8 * (s.size : ℝ) / 2 ^ 40 ≤ 8 * 2 ^ 20 / 2 ^ 40 := div_le_div_of_nonneg_right (by linarith) (by norm_num)
      norm_num at this ha ⊢
      linarith)
    (γ := 64 * s.size)
    (by rw [show 8 * (s.size : ℝ) / length3 a = 8 * (s.size / length3 a) by ring]; linarith)
  refine ⟨V3.normalized ⟨fin x, fin y, fin z⟩, ?_, ?_⟩
  · rw [Shell.contactNormal, hvol, hr, Res.bind_ok, Res.bind_ok, Shell.foldl_range3 o (·.normal),
      Shell.foldl_range3 o fun o => V3.smul o.volume o.normal, ← x1, ← y1, ← z1]
    split <;> rfl
  · rw [show (s.size : ℝ) / 2 ^ 46 = 64 * s.size * (1 / 2 ^ 52) by ring]
    simpa only [V3.real_sdiv] using res

/-- The hypotheses are met: a shell of two ribs with different volumes and frictions. -/
example : ∃ (s : Shell B64) (o : Nat → Output B64) (v f : Nat → ℝ), Reports .strict s o ∧ s.size = 2 ∧
    (∀ i < s.size, Stored (o i).volume (v i) ∧ 0 ≤ v i) ∧ total s.size v = 1 ∧
    (∀ i < s.size, Stored (o i).friction (f i) ∧ |f i| ≤ 1) ∧
    ∃ r, s.contactFriction .strict = .ok (fin r) ∧ |r - 5 / 8| ≤ 1 / 2 ^ 49 := by
  let v : Nat → ℝ := fun i => if i = 0 then 1 / 4 else 3 / 4
  let f : Nat → ℝ := fun i => if i = 0 then 1 else 1 / 2
  let z : V3 B64 := ⟨fin 0, fin 0, fin 0⟩
  let o : Nat → Output B64 := fun i => ⟨z, z, fin (f i), fin 0, fin 0, fin (v i)⟩
  let r : Rib B64 := ⟨⟨fin 1, ⟨z, z⟩⟩, 0, fin 0, fin 1, fin 0⟩
  let s : Shell B64 := ⟨Affine.id, ⟨fin 1, fin 1, fin 1, fin 1, fin 1⟩, Box.default, [r, r], ⟨2, 2, o⟩, []⟩
  have hs : s.size = 2 := rfl
  have hrep : Reports .strict s o := by
    rw [Shell.reports_iff]
    intro i hi
    rw [hs] at hi
    rw [RecVec.read, if_pos]
    simp [RecVec.accessible, s, hi]
  have hv : ∀ i < s.size, Stored (o i).volume (v i) ∧ 0 ≤ v i := by
    intro i _
    refine ⟨rfl, ?_⟩
    dsimp only [v]; split <;> norm_num
  have ht : total s.size v = 1 := by
    rw [hs, total, Finset.sum_range_succ, Finset.sum_range_succ]; norm_num [v]
  have hf : ∀ i < s.size, Stored (o i).friction (f i) ∧ |f i| ≤ 1 := by
    intro i _
    refine ⟨rfl, ?_⟩
    dsimp only [f]; split <;> norm_num [abs_le]
  obtain ⟨V', -, h2, h3, -⟩ := C112_average hrep (by rw [hs]; norm_num) (by rw [hs]; norm_num) hv (by rw [ht]; norm_num) (B := 1)
    (by norm_num) (by norm_num)
  obtain ⟨x, h4, h5⟩ := h3 f hf
  have hV' : 1 / 2 ^ 26 ≤ V' := by
    rw [ht, hs] at h2
    have := (abs_le.1 h2).1
    norm_num at this ⊢
    linarith
  refine ⟨s, o, v, f, hrep, hs, hv, ht, hf, x, h4, ?_⟩
  rw [mean, if_pos hV', ht, hs] at h5
  have e : total 2 (fun i => v i * f i) = 5 / 8 := by
    rw [total, Finset.sum_range_succ, Finset.sum_range_succ]; norm_num [v, f]
  rw [e] at h5
  norm_num at h5 ⊢
  exact h5

end Enve
