import Verif.Props.SamplingProps
import Mathlib.Analysis.SpecialFunctions.Complex.Arg
import Mathlib.Analysis.SpecialFunctions.Trigonometric.Bounds

/-! # The geometric method on a mesh: C25, C36 -/

namespace Enve
open Scalar Spec

/-- The area between an arc of angle `x` and the chord of a triangle with sides `a, b ≤ R`. -/
theorem Spec.section_bounds {R a b x : ℝ} (ha : 0 ≤ a) (ha' : a ≤ R) (hb : 0 ≤ b) (hb' : b ≤ R)
    (hx : 0 ≤ x) (hx' : x ≤ 2 * Real.pi) :
    0 ≤ R * R * (x / 2) - a * b * Real.sin x / 2 ∧
    R * R * (x / 2) - a * b * Real.sin x / 2 ≤ Real.pi * R ^ 2 := by
  have hR : 0 ≤ R := ha.trans ha'
  have hab0 : 0 ≤ a * b := mul_nonneg ha hb
  have hab : a * b ≤ R * R := mul_le_mul ha' hb' hb hR
  have hRR : 0 ≤ R * R := mul_nonneg hR hR
  have hs : Real.sin x ≤ x := Real.sin_le hx
  have hs2 : x - Real.sin x ≤ 2 * Real.pi := by
    have h := Real.sin_le (x := 2 * Real.pi - x) (by linarith)
    rw [Real.sin_two_pi_sub] at h
    linarith
  rcases le_total 0 (Real.sin x) with h0 | h0
  · constructor
    · nlinarith [mul_le_mul hab hs h0 hRR]
    · nlinarith [mul_nonneg hab0 h0, mul_le_mul_of_nonneg_left hx' hRR]
  · constructor
    · nlinarith [mul_nonneg hRR hx, mul_nonneg hab0 (neg_nonneg.2 h0)]
    · have := mul_le_mul_of_nonneg_right hab (neg_nonneg.2 h0)
      nlinarith [mul_le_mul_of_nonneg_left hs2 hRR]

/-- What one intersected triangle contributes. -/
theorem Rib.contrib_spec {r : Rib ℝ} (hr : 0 ≤ r.radius) (hw : 0 ≤ r.width) {pose : Affine ℝ}
    {t : TriangleGround ℝ} {seg : Segment ℝ} {c : Rib.Contrib ℝ} (h : r.contrib pose t seg = some c) :
    c.area = r.width * dist3 seg.v0 seg.v1 ∧ 0 ≤ c.volume ∧
      c.volume ≤ r.width * (Real.pi * r.radius ^ 2) ∧ c.friction = t.friction := by
  unfold Rib.contrib at h
  dsimp only at h
  rw [Option.ite_none_left_eq_some] at h
  obtain ⟨-, h⟩ := h
  · have h := Option.some.inj h
    subst h
    simp only [real_min, real_atan2, real_lt, real_div, real_mul, real_sub, real_two, real_sin]
    set pa := M3.mulVec (M3.transpose pose.linear) (V3.sub seg.v0 (r.centerGrd pose))
    set pb := M3.mulVec (M3.transpose pose.linear) (V3.sub seg.v1 (r.centerGrd pose))
    have a1 := Complex.neg_pi_lt_arg ⟨pa.x, pa.z⟩
    have a2 := Complex.arg_le_pi ⟨pa.x, pa.z⟩
    have b1 := Complex.neg_pi_lt_arg ⟨pb.x, pb.z⟩
    have b2 := Complex.arg_le_pi ⟨pb.x, pb.z⟩
    generalize Complex.arg ⟨pa.x, pa.z⟩ = A at *
    generalize Complex.arg ⟨pb.x, pb.z⟩ = B at *
    have hx : 0 ≤ (if decide (B < A) = true then A else B) - (if decide (B < A) = true then B else A) ∧
        (if decide (B < A) = true then A else B) - (if decide (B < A) = true then B else A) ≤
          2 * Real.pi := by
      split
      · rename_i hc; rw [decide_eq_true_eq] at hc; constructor <;> linarith
      · rename_i hc; rw [decide_eq_true_eq] at hc; constructor <;> linarith
    have hna := V3.norm_nonneg pa
    have hnb := V3.norm_nonneg pb
    have hs := section_bounds (R := r.radius) (a := Min.min r.radius (V3.norm pa))
      (b := Min.min r.radius (V3.norm pb)) (le_min hr hna) (min_le_left _ _) (le_min hr hnb)
      (min_le_left _ _) hx.1 hx.2
    refine ⟨?_, mul_nonneg hs.1 hw, ?_, trivial⟩
    · rw [Segment.length, V3.norm_sub, mul_comm]
    · rw [mul_comm r.width]
      exact mul_le_mul_of_nonneg_right hs.2 hw

/-- The loop over the triangles adds up the contributions of some of them. -/
theorem Rib.geomLoop_spec {r : Rib ℝ} (hr : 0 ≤ r.radius) (hw : 0 ≤ r.width) {pose : Affine ℝ}
    {ts : List (TriangleGround ℝ)} {acc acc' : Rib.Acc ℝ} (h : r.geomLoop pose ts acc = .ok acc') :
    ∃ cs : List (Rib.Contrib ℝ), acc' = cs.foldl Rib.Acc.add acc ∧ cs.length ≤ ts.length ∧
      ∀ c ∈ cs, 0 ≤ c.area ∧ 0 ≤ c.volume ∧ c.volume ≤ r.width * (Real.pi * r.radius ^ 2) ∧
        ∃ t ∈ ts, c.friction = t.friction := by
  induction ts generalizing acc with
  | nil => exact ⟨[], by simpa [Rib.geomLoop] using h.symm, by simp, by simp⟩
  | cons t ts ih =>
    rw [Rib.geomLoop, Res.bind_eq_ok] at h
    obtain ⟨o, -, h⟩ := h
    cases o with
    | none =>
      obtain ⟨cs, h1, h2, h3⟩ := ih h
      refine ⟨cs, h1, by simp; omega, fun c hc => ?_⟩
      obtain ⟨a, b, d, t', ht', e⟩ := h3 c hc
      exact ⟨a, b, d, t', List.mem_cons_of_mem _ ht', e⟩
    | some seg =>
      dsimp only at h
      cases hc : r.contrib pose t seg with
      | none =>
        rw [hc] at h
        exact ⟨[], by simpa using (Res.ok.inj h).symm, by simp, by simp⟩
      | some c =>
        rw [hc] at h
        obtain ⟨cs, h1, h2, h3⟩ := ih h
        refine ⟨c :: cs, by simpa using h1, by simp; omega, fun c' hc' => ?_⟩
        rw [List.mem_cons] at hc'
        rcases hc' with rfl | hc'
        · obtain ⟨e1, e2, e3, e4⟩ := Rib.contrib_spec hr hw hc
          exact ⟨by rw [e1]; exact mul_nonneg hw (dist3_nonneg _ _), e2, e3, t, by simp, e4⟩
        · obtain ⟨a, b, d, t', ht', e⟩ := h3 c' hc'
          exact ⟨a, b, d, t', List.mem_cons_of_mem _ ht', e⟩

/-- The accumulated sums. -/
theorem Rib.foldl_add (cs : List (Rib.Contrib ℝ)) (acc : Rib.Acc ℝ) :
    (cs.foldl Rib.Acc.add acc).area = acc.area + (cs.map (·.area)).sum ∧
    (cs.foldl Rib.Acc.add acc).volume = acc.volume + (cs.map (·.volume)).sum ∧
    (cs.foldl Rib.Acc.add acc).friction = acc.friction + (cs.map fun c => c.volume * c.friction).sum ∧
    (cs.foldl Rib.Acc.add acc).hit = (acc.hit || !cs.isEmpty) := by
  induction cs generalizing acc with
  | nil => simp
  | cons c cs ih =>
    obtain ⟨h1, h2, h3, h4⟩ := ih (acc.add c)
    simp only [List.foldl_cons, h1, h2, h3, h4, List.map_cons, List.sum_cons]
    refine ⟨?_, ?_, ?_, ?_⟩
    · simp only [Rib.Acc.add, real_add]; ring
    · simp only [Rib.Acc.add, real_add]; ring
    · simp only [Rib.Acc.add, real_add, real_mul]; ring
    · simp [Rib.Acc.add]

/-- A weighted sum with nonnegative weights is between bounds of the values. -/
theorem Spec.weighted_bounds {β : Type} (l : List β) (w x : β → ℝ) (lo hi : ℝ)
    (h : ∀ b ∈ l, 0 ≤ w b ∧ lo ≤ x b ∧ x b ≤ hi) :
    (l.map w).sum * lo ≤ (l.map fun b => w b * x b).sum ∧
    (l.map fun b => w b * x b).sum ≤ (l.map w).sum * hi := by
  induction l with
  | nil => simp
  | cons b l ih =>
    obtain ⟨h1, h2⟩ := ih fun b' hb' => h b' (List.mem_cons_of_mem _ hb')
    obtain ⟨a, c, d⟩ := h b List.mem_cons_self
    simp only [List.map_cons, List.sum_cons]
    constructor
    · nlinarith [mul_le_mul_of_nonneg_left c a]
    · nlinarith [mul_le_mul_of_nonneg_left d a]

theorem Spec.list_sum_nonneg {β : Type} (l : List β) (w : β → ℝ) (h : ∀ b ∈ l, 0 ≤ w b) :
    0 ≤ (l.map w).sum := by
  induction l with
  | nil => simp
  | cons b l ih =>
    have := h b List.mem_cons_self
    have := ih fun b' hb' => h b' (List.mem_cons_of_mem _ hb')
    simp only [List.map_cons, List.sum_cons]
    linarith

theorem Spec.list_sum_le {β : Type} (l : List β) (w : β → ℝ) (M : ℝ) (h : ∀ b ∈ l, w b ≤ M) :
    (l.map w).sum ≤ l.length * M := by
  induction l with
  | nil => simp
  | cons b l ih =>
    have := h b List.mem_cons_self
    have := ih fun b' hb' => h b' (List.mem_cons_of_mem _ hb')
    simp only [List.map_cons, List.sum_cons, List.length_cons]
    push_cast
    linarith

/-- The geometric evaluation on a mesh as sums over contributions. -/
theorem Rib.geometricMesh_sums {r : Rib ℝ} (hr : IsRib r) {pose : Affine ℝ}
    {ts : List (TriangleGround ℝ)} {o : Output ℝ} (h : r.envelopGeometricMesh ts pose = .ok (true, o)) :
    ∃ cs : List (Rib.Contrib ℝ), cs.length ≤ ts.length ∧
      (∀ c ∈ cs, 0 ≤ c.area ∧ 0 ≤ c.volume ∧ c.volume ≤ r.width * (Real.pi * r.radius ^ 2) ∧
        ∃ t ∈ ts, c.friction = t.friction) ∧
      o.area = (cs.map (·.area)).sum ∧ o.volume = (cs.map (·.volume)).sum ∧
      o.friction = (cs.map fun c => c.volume * c.friction).sum / (cs.map (·.volume)).sum ∧
      (Scalar.eps < o.area ∨ Scalar.eps < o.volume) := by
  unfold Rib.envelopGeometricMesh at h
  rw [Res.bind_eq_ok] at h
  obtain ⟨acc, hl, h⟩ := h
  have h := Res.ok.inj h
  obtain ⟨cs, h1, h2, h3⟩ := Rib.geomLoop_spec hr.radius_pos.le hr.width_nonneg hl
  refine ⟨cs, h2, h3, ?_⟩
  obtain ⟨f1, f2, f3, -⟩ := Rib.foldl_add cs Rib.Acc.init
  rw [← h1] at f1 f2 f3
  simp only [Rib.Acc.init, real_zero, zero_add] at f1 f2 f3
  unfold Rib.geomFinish at h
  split at h
  · rename_i hc
    simp only [real_lt, Bool.and_eq_true, Bool.or_eq_true, decide_eq_true_eq] at hc
    cases h
    exact ⟨f1, f2, by rw [← f2, ← f3]; rfl, hc.2⟩
  · cases h

/-- **C36 (partial).**  Whenever the geometric method returns, the reported area and volume are not
negative and the volume is at most (number of candidate triangles) times width times the area of the rib
disk; if contact with nonzero volume is reported, the friction is between the frictions of two candidate
triangles (hence between the smallest and the largest).  Missing: contacts with zero volume
(`C36_zero_volume_refuted`). -/
theorem C36_weights_partial {r : Rib ℝ} (hr : IsRib r) (pose : Affine ℝ) (ts : List (TriangleGround ℝ))
    (b : Bool) (o : Output ℝ) (h : r.envelopGeometricMesh ts pose = .ok (b, o)) :
    0 ≤ o.area ∧ 0 ≤ o.volume ∧ o.volume ≤ ts.length * (r.width * (Real.pi * r.radius ^ 2)) ∧
    (b = true → o.volume ≠ 0 →
      ∀ lo hi, (∀ t ∈ ts, lo ≤ t.friction ∧ t.friction ≤ hi) → lo ≤ o.friction ∧ o.friction ≤ hi) := by
  have hM : 0 ≤ r.width * (Real.pi * r.radius ^ 2) :=
    mul_nonneg hr.width_nonneg (by have := Real.pi_pos; positivity)
  cases b with
  | false =>
    have : r.envelopMesh ts pose "geometric" = .ok (false, o) := by simpa [Rib.envelopMesh] using h
    have hn := Rib.envelopMesh_false this
    rw [hn]
    refine ⟨by simp [Rib.noContact], by simp [Rib.noContact], ?_, fun h => by cases h⟩
    simp only [Rib.noContact, real_zero]; positivity
  | true =>
    obtain ⟨cs, h1, h2, h3, h4, h5, -⟩ := Rib.geometricMesh_sums hr h
    have hA : 0 ≤ o.area := by
      rw [h3]; exact list_sum_nonneg _ _ fun c hc => (h2 c hc).1
    have hV : 0 ≤ o.volume := by
      rw [h4]; exact list_sum_nonneg _ _ fun c hc => (h2 c hc).2.1
    refine ⟨hA, hV, ?_, fun _ hne lo hi hb => ?_⟩
    · rw [h4]
      refine (list_sum_le _ _ _ fun c hc => (h2 c hc).2.2.1).trans ?_
      exact mul_le_mul_of_nonneg_right (by exact_mod_cast h1) hM
    · have hpos : 0 < o.volume := lt_of_le_of_ne hV (Ne.symm hne)
      rw [h4] at hpos
      have hw := weighted_bounds cs (·.volume) (·.friction) lo hi fun c hc => by
        obtain ⟨-, v, -, t, ht, e⟩ := h2 c hc
        rw [e]
        exact ⟨v, hb t ht⟩
      rw [h5, le_div_iff₀ hpos, div_le_iff₀ hpos]
      constructor <;> linarith [hw.1, hw.2]

/-- **C25**, the contact evaluations: on grounds of nonnegative friction (all that can be constructed),
every reported friction is nonnegative — for a flat ground and for a mesh, by either method, whatever the
pose; for the geometric method on a mesh provided the reported volume is not zero (otherwise the code
divides by zero). -/
theorem C25_contact_friction {r : Rib ℝ} (hr : IsRib r) (pose : Affine ℝ) (method : String) (b : Bool)
    (o : Output ℝ) :
    (∀ g : Flat ℝ, 0 ≤ g.friction → r.envelopFlat g pose method = .ok (b, o) → 0 ≤ o.friction) ∧
    (∀ ts : List (TriangleGround ℝ), (∀ t ∈ ts, 0 ≤ t.friction) → r.envelopMesh ts pose method = .ok (b, o) →
      (method = "geometric" → b = true → o.volume ≠ 0) → 0 ≤ o.friction) := by
  have hsamp : ∀ f : Line ℝ → Option (V3 ℝ × ℝ), (∀ l p c, f l = some (p, c) → 0 ≤ c) →
      r.envelopSampling f pose = (b, o) → 0 ≤ o.friction := by
    intro f hf h
    unfold Rib.envelopSampling at h
    split at h
    · rename_i p0 f0 p1 f1 p2 f2 p3 f3 e0 e1 e2 e3
      have := hf _ _ _ e0
      have := hf _ _ _ e1
      have := hf _ _ _ e2
      have := hf _ _ _ e3
      dsimp only at h
      split at h
      · cases h
        simp only [real_add, real_div, real_lit]
        positivity
      · cases h; simp [Rib.noContact]
    · cases h; simp [Rib.noContact]
  constructor
  · intro g hg h
    unfold Rib.envelopFlat at h
    split at h
    · have h := Res.ok.inj h
      unfold Rib.envelopGeometricFlat at h
      split at h
      · cases h; simp [Rib.noContact]
      · dsimp only at h
        split at h
        · cases h; exact hg
        · cases h; simp [Rib.noContact]
    · split at h
      · refine hsamp (Rib.samplingLineFlat g) (fun l p c hc => ?_) (Res.ok.inj h)
        unfold Rib.samplingLineFlat at hc
        rw [Option.map_eq_some_iff] at hc
        obtain ⟨q, -, e⟩ := hc
        cases e
        exact hg
      · cases h
  · intro ts hts h _
    cases b with
    | false => rw [Rib.envelopMesh_false h]; simp [Rib.noContact]
    | true =>
      unfold Rib.envelopMesh at h
      split at h
      · rename_i hm
        obtain ⟨cs, h1, h2, h3, h4, h5, -⟩ := Rib.geometricMesh_sums hr h
        rw [h5]
        refine div_nonneg (list_sum_nonneg _ _ fun c hc => ?_) (list_sum_nonneg _ _ fun c hc => (h2 c hc).2.1)
        obtain ⟨-, v, -, t, ht, e⟩ := h2 c hc
        rw [e]
        exact mul_nonneg v (hts t ht)
      · split at h
        · refine hsamp (Rib.samplingLineMesh ts) (fun l p c hc => ?_) (Res.ok.inj h)
          obtain ⟨⟨t, ht, -, e⟩, -⟩ := (C28_highest_hit OrderOn.real ts l).2 p c hc
          rw [← e]
          exact hts t ht
        · cases h

end Enve
