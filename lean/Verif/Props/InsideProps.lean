import Verif.Props.RecordProps
import Verif.Props.VolumeProps
import Verif.Props.SuperProps
import Verif.Props.SearchProps
import Verif.Lemmas.SegmentRound

/-! # C130: the reported contact point is inside the tyre -/

namespace Enve
open Scalar Spec

/-! ## Weighted averages of points of a disk -/

theorem Spec.disk_add {x z u w A B : ℝ} (hA : 0 ≤ A) (hB : 0 ≤ B) (h1 : x ^ 2 + z ^ 2 ≤ A ^ 2)
    (h2 : u ^ 2 + w ^ 2 ≤ B ^ 2) : (x + u) ^ 2 + (z + w) ^ 2 ≤ (A + B) ^ 2 := by
  have hsq : (x * u + z * w) ^ 2 ≤ (A * B) ^ 2 := by
    have h3 : (x ^ 2 + z ^ 2) * (u ^ 2 + w ^ 2) ≤ A ^ 2 * B ^ 2 :=
      mul_le_mul h1 h2 (by positivity) (by positivity)
    nlinarith [sq_nonneg (x * w - z * u)]
  have := abs_le_of_sq_le_sq' hsq (mul_nonneg hA hB)
  nlinarith [this.2]

/-- The weighted sum of values of a list. -/
theorem Spec.disk_list {β : Type} (l : List β) (w x z : β → ℝ) {R : ℝ} (hR : 0 ≤ R)
    (h : ∀ b ∈ l, 0 ≤ w b ∧ x b ^ 2 + z b ^ 2 ≤ R ^ 2) :
    (l.map fun b => w b * x b).sum ^ 2 + (l.map fun b => w b * z b).sum ^ 2 ≤ ((l.map w).sum * R) ^ 2 ∧
    0 ≤ (l.map w).sum := by
  induction l with
  | nil => simp
  | cons b l ih =>
    obtain ⟨h1, h2⟩ := ih fun c hc => h c (List.mem_cons_of_mem _ hc)
    obtain ⟨h3, h4⟩ := h b List.mem_cons_self
    simp only [List.map_cons, List.sum_cons]
    refine ⟨?_, by linarith⟩
    rw [add_mul]
    refine disk_add (mul_nonneg h3 hR) (mul_nonneg h2 hR) ?_ h1
    have : 0 ≤ w b ^ 2 := sq_nonneg _
    nlinarith

/-- An average with the weights of the ribs of squares is at least the square of the average. -/
theorem Spec.disk_average {n : Nat} {w x z : Nat → ℝ} {R : ℝ} (hw : ∀ i < n, 0 ≤ w i)
    (hs : ∑ i ∈ Finset.range n, w i = 1) (h : ∀ i < n, x i ^ 2 + z i ^ 2 ≤ R ^ 2) :
    (∑ i ∈ Finset.range n, w i * x i) ^ 2 + (∑ i ∈ Finset.range n, w i * z i) ^ 2 ≤ R ^ 2 := by
  have jensen : ∀ y : Nat → ℝ, (∑ i ∈ Finset.range n, w i * y i) ^ 2 ≤ ∑ i ∈ Finset.range n, w i * y i ^ 2 := by
    intro y
    set Y := ∑ i ∈ Finset.range n, w i * y i with hY
    have h0 : 0 ≤ ∑ i ∈ Finset.range n, w i * (y i - Y) ^ 2 :=
      Finset.sum_nonneg fun i hi => mul_nonneg (hw i (Finset.mem_range.1 hi)) (sq_nonneg _)
    have e : ∑ i ∈ Finset.range n, w i * (y i - Y) ^ 2 =
        ∑ i ∈ Finset.range n, w i * y i ^ 2 - 2 * Y * ∑ i ∈ Finset.range n, w i * y i +
          Y ^ 2 * ∑ i ∈ Finset.range n, w i := by
      rw [Finset.mul_sum _ _ (2 * Y), Finset.mul_sum _ _ (Y ^ 2), ← Finset.sum_sub_distrib, ← Finset.sum_add_distrib]
      exact Finset.sum_congr rfl fun i _ => by ring
    rw [e, hs, ← hY] at h0
    nlinarith
  have h2 : ∑ i ∈ Finset.range n, w i * x i ^ 2 + ∑ i ∈ Finset.range n, w i * z i ^ 2 ≤
      ∑ i ∈ Finset.range n, w i * R ^ 2 := by
    rw [← Finset.sum_add_distrib]
    refine Finset.sum_le_sum fun i hi => ?_
    have := mul_le_mul_of_nonneg_left (h i (Finset.mem_range.1 hi)) (hw i (Finset.mem_range.1 hi))
    linarith
  rw [← Finset.sum_mul, hs, one_mul] at h2
  linarith [jensen x, jensen z]

/-! ## One rib -/

/-- The distance of a point of a rib disk from the centre of the rib. -/
theorem Spec.OnRibDisk.dist_le {r : Rib ℝ} (hr : IsRib r) {pose : Affine ℝ} (hp : IsRigid pose) {p : V3 ℝ}
    (h : OnRibDisk pose r p) : dist3 p (pose.apply ⟨0, r.y, 0⟩) ≤ r.radius := by
  obtain ⟨x, z, h1, rfl⟩ := h
  have hc : r.center = ⟨0, r.y, 0⟩ := hr.center
  rw [hc, Affine.dist_apply hp]
  refine (Real.sqrt_le_sqrt ?_).trans_eq (Real.sqrt_sq hr.radius_pos.le)
  dsimp only
  show _ ≤ r.radius ^ 2
  linarith

/-- One triangle contributes a point of the rib disk. -/
theorem Rib.contrib_onDisk {r : Rib ℝ} (hr : IsRib r) {pose : Affine ℝ} {t : TriangleGround ℝ} {seg : Segment ℝ}
    {c : Rib.Contrib ℝ} (h : r.contrib pose t seg = some c) : OnRibDisk pose r c.point := by
  unfold Rib.contrib at h
  dsimp only at h
  rw [Option.ite_none_left_eq_some] at h
  obtain ⟨-, h⟩ := h
  · have h := Option.some.inj h
    rw [← h]
    dsimp only
    set rc := Scalar.min r.radius (Scalar.max Scalar.zero _) with hrc
    have hrad : 0 ≤ r.radius := hr.radius_pos.le
    have h0 : 0 ≤ rc := by
      rw [hrc]; simp only [real_min, real_max, real_zero]
      exact le_min hrad (le_max_left _ _)
    have h1 : rc ≤ r.radius := by
      rw [hrc]; simp only [real_min]
      exact min_le_left _ _
    clear_value rc
    generalize (_ /. two : ℝ) = tc
    refine ⟨rc * Real.cos tc, rc * Real.sin tc, ?_, ?_⟩
    · have e : (rc * Real.cos tc) ^ 2 + (rc * Real.sin tc) ^ 2 = rc ^ 2 := by
        linear_combination rc ^ 2 * Real.cos_sq_add_sin_sq tc
      rw [e]
      exact pow_le_pow_left₀ h0 h1 2
    · simp only [real_cos, real_sin, real_zero]
      v3
      simp only [mul_zero, add_zero]
      congr 1 <;> ring

/-- The contributions to a geometric contact on a mesh, with their points. -/
theorem Rib.geomLoop_points {r : Rib ℝ} (hr : IsRib r) {pose : Affine ℝ}
    {ts : List (TriangleGround ℝ)} {acc acc' : Rib.Acc ℝ} (h : r.geomLoop pose ts acc = .ok acc') :
    ∃ cs : List (Rib.Contrib ℝ), acc' = cs.foldl Rib.Acc.add acc ∧
      ∀ c ∈ cs, 0 ≤ c.volume ∧ OnRibDisk pose r c.point := by
  induction ts generalizing acc with
  | nil => exact ⟨[], by simpa [Rib.geomLoop] using h.symm, by simp⟩
  | cons t ts ih =>
    have hall := h
    rw [Rib.geomLoop, Res.bind_eq_ok] at h
    obtain ⟨o, -, h⟩ := h
    cases o with
    | none => exact ih h
    | some seg =>
      dsimp only at h
      cases hc : r.contrib pose t seg with
      | none =>
        rw [hc] at h
        exact ⟨[], by simpa using (Res.ok.inj h).symm, by simp⟩
      | some c =>
        rw [hc] at h
        obtain ⟨cs, h1, h2⟩ := ih h
        refine ⟨c :: cs, by simpa using h1, fun d hd => ?_⟩
        rcases List.mem_cons.1 hd with rfl | hd
        · exact ⟨(Rib.contrib_spec hr.radius_pos.le hr.width_nonneg hc).2.1, Rib.contrib_onDisk hr hc⟩
        · exact h2 d hd

/-- A geometric contact on a mesh, of non-zero volume: the point is in the disk of the rib. -/
theorem Rib.geometricMesh_onDisk {r : Rib ℝ} (hr : IsRib r) {pose : Affine ℝ} {ts : List (TriangleGround ℝ)}
    {o : Output ℝ} (h : r.envelopGeometricMesh ts pose = .ok (true, o)) (hv : o.volume ≠ 0) :
    OnRibDisk pose r o.point ∧ o.depth = r.radius - dist3 o.point (pose.apply ⟨0, r.y, 0⟩) := by
  unfold Rib.envelopGeometricMesh at h
  rw [Res.bind_eq_ok] at h
  obtain ⟨acc, hl, h⟩ := h
  have h := Res.ok.inj h
  obtain ⟨cs, h1, h2⟩ := Rib.geomLoop_points hr hl
  have hvol := (Rib.foldl_add cs Rib.Acc.init).2.1
  have hpt := (Rib.foldl_add_vec cs Rib.Acc.init).1
  rw [← h1] at hvol hpt
  unfold Rib.geomFinish at h
  split at h
  · cases h
    dsimp only at hv ⊢
    have hcen : r.centerGrd pose = pose.apply ⟨0, r.y, 0⟩ := by
      rw [Rib.centerGrd_eq]
      show pose.apply r.disk.plane.origin = _
      rw [hr.center]
    refine ⟨?_, ?_⟩
    · have hx : ∀ c : Rib.Contrib ℝ, ∃ xz : ℝ × ℝ, c ∈ cs → xz.1 ^ 2 + xz.2 ^ 2 ≤ r.radius ^ 2 ∧
          c.point = pose.apply ⟨r.center.x + xz.1, r.center.y, r.center.z + xz.2⟩ := by
        intro c
        by_cases hc : c ∈ cs
        · obtain ⟨x, z, e1, e2⟩ := (h2 c hc).2
          exact ⟨(x, z), fun _ => ⟨e1, e2⟩⟩
        · exact ⟨(0, 0), fun h => absurd h hc⟩
      choose f hf using hx
      obtain ⟨d1, d2⟩ := disk_list cs (·.volume) (fun c => (f c).1) (fun c => (f c).2) (R := r.radius) hr.radius_pos.le
        fun c hc => ⟨(h2 c hc).1, (hf c hc).1⟩
      simp only [Rib.Acc.init, real_zero, zero_add] at hvol
      rw [hvol] at hv
      have hpos : 0 < (cs.map (·.volume)).sum := lt_of_le_of_ne d2 (Ne.symm hv)
      have hap : ∀ x z : ℝ, pose.apply ⟨r.center.x + x, r.center.y, r.center.z + z⟩ =
          ⟨(pose.apply r.center).x + (pose.linear.c0.x * x + pose.linear.c2.x * z),
           (pose.apply r.center).y + (pose.linear.c0.y * x + pose.linear.c2.y * z),
           (pose.apply r.center).z + (pose.linear.c0.z * x + pose.linear.c2.z * z)⟩ := by
        intro x z
        simp only [Affine.apply]
        v3
        congr 1 <;> ring
      have key : ∀ (g : V3 ℝ → ℝ) (q a b : ℝ) (l : List (Rib.Contrib ℝ)), (∀ c ∈ l, g c.point = q + (a * (f c).1 + b * (f c).2)) →
          (l.map fun c => c.volume * g c.point).sum = (l.map (·.volume)).sum * q +
            (a * (l.map fun c => c.volume * (f c).1).sum + b * (l.map fun c => c.volume * (f c).2).sum) := by
        intro g q a b l hl
        induction l with
        | nil => simp
        | cons c l ih =>
          simp only [List.map_cons, List.sum_cons]
          rw [ih fun d hd => hl d (List.mem_cons_of_mem _ hd), hl c List.mem_cons_self]
          ring
      have hpt2 : ∀ c ∈ cs, c.point = _ := fun c hc => (hf c hc).2.trans (hap _ _)
      have kx := key V3.x _ _ _ cs fun c hc => congrArg V3.x (hpt2 c hc)
      have ky := key V3.y _ _ _ cs fun c hc => congrArg V3.y (hpt2 c hc)
      have kz := key V3.z _ _ _ cs fun c hc => congrArg V3.z (hpt2 c hc)
      refine ⟨(cs.map fun c => c.volume * (f c).1).sum / (cs.map (·.volume)).sum,
        (cs.map fun c => c.volume * (f c).2).sum / (cs.map (·.volume)).sum, ?_, ?_⟩
      · rw [div_pow, div_pow, ← add_div, div_le_iff₀ (by positivity)]
        linarith [d1]
      · rw [hap, hpt, hvol]
        simp only [wsum, Rib.Acc.init, kx, ky, kz, V3.real_sdiv, V3.real_add, V3.zeros, real_zero, zero_add]
        generalize (cs.map fun c => c.volume * (f c).1).sum = X
        generalize (cs.map fun c => c.volume * (f c).2).sum = Z
        generalize (cs.map (·.volume)).sum = V at *
        congr 1 <;> field_simp
    · rw [hcen]
      simp only [real_sub, V3.norm_sub]
  · cases h

/-- The record of no contact: a point of the rim. -/
theorem Rib.noContact_onDisk {r : Rib ℝ} (hr : IsRib r) {pose : Affine ℝ} (hp : IsRigid pose) :
    OnRibDisk pose r (r.noContact pose).point ∧
    (r.noContact pose).depth = r.radius - dist3 (r.noContact pose).point (pose.apply ⟨0, r.y, 0⟩) := by
  have e : (r.noContact pose).point = pose.apply ⟨r.center.x + 0, r.center.y, r.center.z + -r.radius⟩ := by
    simp only [Rib.noContact, Affine.apply]
    v3
    congr 1 <;> ring
  refine ⟨⟨0, -r.radius, by ring_nf; exact le_rfl, e⟩, ?_⟩
  have hc : r.center = ⟨0, r.y, 0⟩ := hr.center
  rw [e, hc, Affine.dist_apply hp]
  have : dist3 (⟨0 + 0, r.y, 0 + -r.radius⟩ : V3 ℝ) ⟨0, r.y, 0⟩ = r.radius := by
    rw [dist3]
    have h0 : 0 ≤ r.radius := hr.radius_pos.le
    dsimp only
    rw [show ((0 : ℝ) + 0 - 0) ^ 2 + (r.y - r.y) ^ 2 + (0 + -r.radius - 0) ^ 2 = r.radius ^ 2 by ring, Real.sqrt_sq h0]
  rw [this, sub_self]
  simp [Rib.noContact]

/-- The record of a sampled contact. -/
theorem Rib.envelopSampling_inside {r : Rib ℝ} (hr : IsRib r) {f : Line ℝ → Option (V3 ℝ × ℝ)}
    {pose : Affine ℝ} {o : Output ℝ} (h : r.envelopSampling f pose = (true, o)) :
    0 < o.depth ∧ dist3 o.point (pose.apply ⟨0, r.y, 0⟩) + o.depth ≤ r.radius := by
  refine ⟨(Rib.envelopSampling_record hr.radius_pos h).1, ?_⟩
  have hcen : r.centerGrd pose = pose.apply ⟨0, r.y, 0⟩ := by
    rw [Rib.centerGrd_eq]
    show pose.apply r.disk.plane.origin = _
    rw [hr.center]
  unfold Rib.envelopSampling at h
  split at h
  · dsimp only at h
    split at h
    · cases h
      simp only [real_sub, real_mul, real_abs]
      rw [hcen, V3.norm_sub]
      have h2 := V3.abs_dot_normalized_le
      have h0 : 0 ≤ r.radius := hr.radius_pos.le
      exact (add_sub_cancel _ _).trans_le ((mul_le_mul_of_nonneg_left (h2 _ _) h0).trans (by rw [mul_one]))
    · cases h
  · cases h

/-- A record that is written when rib `r` is evaluated by `method` at `pose`: no triangle near, flat ground, or mesh. -/
inductive Spec.EvaluatedBy (method : String) (r : Rib ℝ) (pose : Affine ℝ) (o : Output ℝ) : Prop where
  | none : o = r.noContact pose → EvaluatedBy method r pose o
  | flat (f : ℝ) (og n : V3 ℝ) (g : Flat ℝ) (b : Bool) : Flat.make f og n = .ok g →
      r.envelopFlat g pose method = .ok (b, o) → EvaluatedBy method r pose o
  | mesh (ts : List (TriangleGround ℝ)) (b : Bool) :
      r.envelopMesh ts pose method = .ok (b, o) → EvaluatedBy method r pose o

theorem Spec.EvaluatedBy.weights {method : String} {r : Rib ℝ} (hr : IsRib r) {pose : Affine ℝ} (hp : IsRigid pose) {o : Output ℝ}
    (h : EvaluatedBy method r pose o) : 0 ≤ o.volume ∧ 0 ≤ o.area := by
  refine EvaluatedRib.volume_nonneg hr hp (?_ : EvaluatedRib r pose o)
  rcases h with h | ⟨f, og, n, g, b, hg, h⟩ | ⟨ts, b, h⟩
  · exact .none h
  · exact .flat f og n g method b hg h
  · exact .mesh ts method b h

/-- On flat ground, and wherever the sampling method is used, a contact with an area has a volume. -/
theorem Spec.has_volume {method : String} {r : Rib ℝ} (hr : IsRib r) {pose : Affine ℝ} (hp : IsRigid pose) {o : Output ℝ}
    (h : (∃ f og n g b, Flat.make f og n = .ok g ∧ r.envelopFlat g pose method = .ok (b, o)) ∨
      (∃ ts b, r.envelopMesh ts pose "sampling" = .ok (b, o)) ∨ o = r.noContact pose) : o.area ≠ 0 → o.volume ≠ 0 := by
  have hno : (r.noContact pose).area = 0 := by simp [Rib.noContact]
  have key : (∃ f og n g method, Flat.make f og n = .ok g ∧ r.envelopFlat g pose method = .ok (true, o)) ∨
      (∃ ts, r.envelopMesh ts pose "sampling" = .ok (true, o)) → o.area ≠ 0 → o.volume ≠ 0 := by
    intro h ha
    obtain ⟨h1, h2, ⟨c, -, h3⟩, h4, -⟩ := C31_records hr hp h
    have hR : 0 < r.radius := hr.radius_pos
    have hlow := SegRound.area_lower hR h1.le h2
    have hpos : 0 < segmentArea r.radius o.depth := lt_of_lt_of_le (mul_pos h1 (Real.sqrt_pos.2 (mul_pos hR h1))) hlow
    rw [h4]
    refine mul_ne_zero (fun hw => ha ?_) hpos.ne'
    rw [h3, hw, zero_mul]
  rcases h with ⟨f, og, n, g, b, hg, h⟩ | ⟨ts, b, h⟩ | rfl
  · cases b with
    | false => rw [Rib.envelopFlat_false h]; exact fun h => absurd hno h
    | true => exact key (.inl ⟨f, og, n, g, method, hg, h⟩)
  · cases b with
    | false => rw [Rib.envelopMesh_false h]; exact fun h => absurd hno h
    | true => exact key (.inr ⟨ts, h⟩)
  · exact fun h => absurd hno h

/-- **C130, the geometric method (partial).**  On flat ground and on a mesh, in contact and not in contact, at every rigid pose: the contact point of a
rib is in the disk of the rib, and the depth is the distance from it to the rim, along the radius.  The exception is a contact on a mesh
with an area but no volume, which is divided by zero (see C36). -/
theorem C130_geometric_partial {r : Rib ℝ} (hr : IsRib r) {pose : Affine ℝ} (hp : IsRigid pose) {o : Output ℝ}
    (h : EvaluatedBy "geometric" r pose o) (hv : o.area ≠ 0 → o.volume ≠ 0) :
    OnRibDisk pose r o.point ∧ o.depth = r.radius - dist3 o.point (pose.apply ⟨0, r.y, 0⟩) := by
  rcases h with rfl | ⟨f, og, n, g, b, hg, h⟩ | ⟨ts, b, h⟩
  · exact Rib.noContact_onDisk hr hp
  · cases b with
    | false => rw [Rib.envelopFlat_false h]; exact Rib.noContact_onDisk hr hp
    | true =>
      have h : r.envelopGeometricFlat g pose = (true, o) := by simpa [Rib.envelopFlat] using h
      have hc := C32_contact hr hp hg (by rw [h])
      rw [h] at hc
      exact ⟨hc.1.2, hc.2.2.2.2.2.1⟩
  · cases b with
    | false => rw [Rib.envelopMesh_false h]; exact Rib.noContact_onDisk hr hp
    | true =>
      have h : r.envelopGeometricMesh ts pose = .ok (true, o) := by simpa [Rib.envelopMesh] using h
      obtain ⟨cs, -, hcs, e1, e2, -, hbig⟩ := Rib.geometricMesh_sums hr h
      refine Rib.geometricMesh_onDisk hr h ?_
      have heps := real_eps_pos
      rcases hbig with hb | hb
      · exact hv (by linarith)
      · linarith

/-- **C130, both methods (partial).**  The depth of the record of a rib is not negative, and the contact point is at least that far inside
the sphere of the radius of the rib around the centre of the rib. -/
theorem C130_rib_partial {r : Rib ℝ} (hr : IsRib r) {pose : Affine ℝ} (hp : IsRigid pose) {o : Output ℝ} {method : String}
    (h : EvaluatedBy method r pose o) (hv : method = "geometric" → o.area ≠ 0 → o.volume ≠ 0) :
    0 ≤ o.depth ∧ dist3 o.point (pose.apply ⟨0, r.y, 0⟩) + o.depth ≤ r.radius := by
  have hdisk : ∀ {o : Output ℝ}, OnRibDisk pose r o.point → o.depth = r.radius - dist3 o.point (pose.apply ⟨0, r.y, 0⟩) →
      0 ≤ o.depth ∧ dist3 o.point (pose.apply ⟨0, r.y, 0⟩) + o.depth ≤ r.radius := by
    intro o h1 h2
    have := h1.dist_le hr hp
    exact ⟨by linarith, by linarith⟩
  by_cases hm : method = "geometric"
  · subst hm
    obtain ⟨h1, h2⟩ := C130_geometric_partial hr hp h (hv rfl)
    exact hdisk h1 h2
  · have hno := Rib.noContact_onDisk hr hp
    rcases h with rfl | ⟨f, og, n, g, b, hg, h⟩ | ⟨ts, b, h⟩
    · exact hdisk hno.1 hno.2
    · cases b with
      | false => rw [Rib.envelopFlat_false h]; exact hdisk hno.1 hno.2
      | true =>
        unfold Rib.envelopFlat at h
        rw [if_neg hm] at h
        split at h
        · have := Rib.envelopSampling_inside hr (Res.ok.inj h)
          exact ⟨this.1.le, this.2⟩
        · cases h
    · cases b with
      | false => rw [Rib.envelopMesh_false h]; exact hdisk hno.1 hno.2
      | true =>
        unfold Rib.envelopMesh at h
        rw [if_neg hm] at h
        split at h
        · have := Rib.envelopSampling_inside hr (Res.ok.inj h)
          exact ⟨this.1.le, this.2⟩
        · cases h

/-! ## The whole tyre -/

/-- After a setup every rib reports the record of its evaluation. -/
theorem Spec.SetUp.evaluated {pol : Policy} {s s' : Shell ℝ} (hs : s.Reachable pol) {pose : Affine ℝ}
    {method : String} {b : Bool} (h : SetUp pol s pose method s' b) :
    ∃ o, Reports pol s' o ∧ ∀ i < s'.size, ∃ r, s'.ribs[i]? = some r ∧ IsRib r ∧ EvaluatedBy method r pose (o i) := by
  have hrib : ∀ (i : Nat) r, s'.ribs[i]? = some r → IsRib r := by
    intro i r hr
    rw [h.rel.ribs] at hr
    exact hs.isRib r (List.mem_of_getElem? hr)
  have hsize : s'.size = s.size := by rw [Shell.size, h.rel.ribs]; rfl
  rw [hsize]
  rcases h with ⟨g, h⟩ | ⟨f, og, n, g, hg, h⟩
  · obtain ⟨loc, hloc⟩ : ∃ loc, g.intersection (s.transform pose).updateBBox.bbox = .ok loc := by
      cases hi : g.intersection (s.transform pose).updateBBox.bbox with
      | ok loc => exact ⟨loc, rfl⟩
      | throw m => simp [Shell.setupMesh, hi] at h
      | ub w => simp [Shell.setupMesh, hi] at h
    obtain ⟨flags, recs, h1, -⟩ := C38_mesh_flag pol s s' hs g pose method loc b hloc h
    refine ⟨recs, ?_, fun i hi => ?_⟩
    · rw [Shell.reports_iff, hsize]
      intro i hi
      obtain ⟨_, -, -, e⟩ := h1 i hi
      exact e
    · obtain ⟨r, a, c, -⟩ := h1 i hi
      refine ⟨r, a, hrib i r a, ?_⟩
      split at c
      · exact .none (Prod.mk.inj (Res.ok.inj c)).2.symm
      · exact .mesh _ _ c
  · obtain ⟨flags, recs, h1, -⟩ := C38_flat_flag_partial pol s s' g pose method b h
    refine ⟨recs, ?_, fun i hi => ?_⟩
    · rw [Shell.reports_iff, hsize]
      intro i hi
      obtain ⟨_, -, -, e⟩ := h1 i hi
      exact e
    · obtain ⟨r, a, c, -⟩ := h1 i hi
      exact ⟨r, a, hrib i r a, .flat f og n g _ hg c⟩

/-- The coordinates of a point in the axes of the wheel. -/
theorem Spec.wheel_coords {pose : Affine ℝ} (hp : IsRigid pose) (p : V3 ℝ) : ∃ q : V3 ℝ, p = pose.apply q := by
  have hR : IsRotation pose.linear := hp
  refine ⟨⟨dot3 (minus p pose.trans) pose.linear.c0, dot3 (minus p pose.trans) pose.linear.c1,
    dot3 (minus p pose.trans) pose.linear.c2⟩, ?_⟩
  · have e : p = V3.add (minus p pose.trans) pose.trans := by rw [V3.real_add]; simp [minus]
    conv_lhs => rw [e, hR.expand (minus p pose.trans)]
    simp only [Affine.apply]

theorem Spec.apply_average {n : Nat} {w : Nat → ℝ} (pose : Affine ℝ) (hs : ∑ i ∈ Finset.range n, w i = 1) (p q : Nat → V3 ℝ)
    (h : ∀ i < n, p i = pose.apply (q i)) :
    (⟨∑ i ∈ Finset.range n, w i * (p i).x, ∑ i ∈ Finset.range n, w i * (p i).y, ∑ i ∈ Finset.range n, w i * (p i).z⟩ : V3 ℝ) =
      pose.apply ⟨∑ i ∈ Finset.range n, w i * (q i).x, ∑ i ∈ Finset.range n, w i * (q i).y, ∑ i ∈ Finset.range n, w i * (q i).z⟩ := by
  have key : ∀ (g : V3 ℝ → ℝ) (t a b c : ℝ), (∀ i < n, g (p i) = t + (a * (q i).x + b * (q i).y + c * (q i).z)) →
      ∑ i ∈ Finset.range n, w i * g (p i) = t + (a * ∑ i ∈ Finset.range n, w i * (q i).x +
        b * ∑ i ∈ Finset.range n, w i * (q i).y + c * ∑ i ∈ Finset.range n, w i * (q i).z) := by
    intro g t a b c hg
    have : t = t * ∑ i ∈ Finset.range n, w i := by rw [hs, mul_one]
    rw [this, Finset.mul_sum, Finset.mul_sum, Finset.mul_sum, Finset.mul_sum, ← Finset.sum_add_distrib, ← Finset.sum_add_distrib,
      ← Finset.sum_add_distrib]
    refine Finset.sum_congr rfl fun i hi => ?_
    rw [hg i (Finset.mem_range.1 hi)]
    ring
  have hap : ∀ v : V3 ℝ, pose.apply v =
      ⟨pose.trans.x + (pose.linear.c0.x * v.x + pose.linear.c1.x * v.y + pose.linear.c2.x * v.z),
       pose.trans.y + (pose.linear.c0.y * v.x + pose.linear.c1.y * v.y + pose.linear.c2.y * v.z),
       pose.trans.z + (pose.linear.c0.z * v.x + pose.linear.c1.z * v.y + pose.linear.c2.z * v.z)⟩ := by
    intro v
    simp only [Affine.apply]
    v3
    congr 1 <;> ring
  rw [hap]
  have h' : ∀ i < n, p i = _ := fun i hi => (h i hi).trans (hap (q i))
  rw [key V3.x _ _ _ _ fun i hi => congrArg V3.x (h' i hi), key V3.y _ _ _ _ fun i hi => congrArg V3.y (h' i hi),
    key V3.z _ _ _ _ fun i hi => congrArg V3.z (h' i hi)]

/-- **C130, the tyre (partial).**  After a setup by either method, on any ground, at a rigid pose: if the ribs have radii up to `R` and are up to
`L` from the middle, the contact point of the tyre is within `R` of the wheel axis; with the geometric method it is also within `L`
of the middle plane.  The depth is not negative, and at most `R` (or the tolerance `eps`, for a contact of smaller volume).  On a
mesh with the geometric method no rib may have a contact area without a contact volume. -/
theorem C130_tyre_partial {pol : Policy} {s s' : Shell ℝ} (hs : s.Reachable pol) {pose : Affine ℝ} (hp : IsRigid pose)
    {method : String} {b : Bool} (h : SetUp pol s pose method s' b) (hn : 1 ≤ s'.size) {R L : ℝ}
    (hribs : ∀ r ∈ s.ribs, r.radius ≤ R ∧ |r.center.y| ≤ L)
    (hv : method = "geometric" → (∃ m, s.setupMesh pol m pose method = .ok s' b) → ∀ o, Reports pol s' o →
      ∀ i < s'.size, (o i).area ≠ 0 → (o i).volume ≠ 0) :
    (∃ x y z, s'.contactPoint pol = .ok (pose.apply ⟨x, y, z⟩) ∧ x ^ 2 + z ^ 2 ≤ R ^ 2 ∧ |y| ≤ L + R ∧
      (method = "geometric" → |y| ≤ L)) ∧
    ∃ d, s'.contactDepth pol = .ok d ∧ 0 ≤ d ∧ d ≤ Max.max R Scalar.eps := by
  obtain ⟨o, ho, hev⟩ := h.evaluated hs
  have hv : method = "geometric" → ∀ i < s'.size, (o i).area ≠ 0 → (o i).volume ≠ 0 := by
    intro hm
    rcases h with ⟨g, h⟩ | ⟨f, og, n, g, hg, h⟩
    · exact hv hm ⟨g, h⟩ o ho
    · intro i hi
      have hrel : Shell.SetupRel s s' pose := Shell.setupFlat_rel (.inl ⟨_, h⟩)
      obtain ⟨flags, recs, h1, -⟩ := C38_flat_flag_partial pol s s' g pose method b h
      have hsize : s'.size = s.size := by rw [Shell.size, hrel.ribs]; rfl
      obtain ⟨r, a, c, e⟩ := h1 i (by omega)
      have := (Shell.reports_iff.1 ho i hi).symm.trans e
      rw [Res.ok.inj this]
      have hr : IsRib r := by
        rw [hrel.ribs] at a
        exact hs.isRib r (List.mem_of_getElem? a)
      exact has_volume hr hp (.inl ⟨f, og, n, g, _, hg, c⟩)
  have hmem : ∀ (i : Nat) r, s'.ribs[i]? = some r → r ∈ s.ribs := by
    intro i r hr
    rw [h.rel.ribs] at hr
    exact List.mem_of_getElem? hr
  have hvol : ∀ i < s'.size, 0 ≤ (o i).volume := by
    intro i hi
    obtain ⟨r, h1, h2, h3⟩ := hev i hi
    exact (h3.weights h2 hp).1
  have hR : 0 ≤ R := by
    obtain ⟨r, h1, h2, h3⟩ := hev 0 hn
    have h0 : 0 < r.radius := h2.radius_pos
    linarith [(hribs r (hmem 0 r h1)).1]
  obtain ⟨w0, w1, hpt, -, hdep⟩ := C43_average ho hn hvol
  have hq : ∀ i, ∃ q : V3 ℝ, i < s'.size → (o i).point = pose.apply q ∧ q.x ^ 2 + q.z ^ 2 ≤ R ^ 2 ∧ |q.y| ≤ L + R ∧
      (method = "geometric" → |q.y| ≤ L) := by
    intro i
    by_cases hi : i < s'.size
    · obtain ⟨r, h1, h2, h3⟩ := hev i hi
      obtain ⟨hrad, hy⟩ := hribs r (hmem i r h1)
      have hc : r.center = ⟨0, r.y, 0⟩ := h2.center
      rw [hc] at hy
      have h0 : 0 < r.radius := h2.radius_pos
      by_cases hm : method = "geometric"
      · subst hm
        obtain ⟨x, z, e1, e2⟩ := (C130_geometric_partial h2 hp h3 (hv rfl i hi)).1
        rw [hc] at e2
        refine ⟨_, fun _ => ⟨e2, ?_, ?_, fun _ => hy⟩⟩
        · dsimp only
          rw [zero_add, zero_add]
          nlinarith
        · dsimp only at hy ⊢
          linarith
      · obtain ⟨q, e⟩ := wheel_coords hp (o i).point
        obtain ⟨h4, h5⟩ := C130_rib_partial h2 hp h3 (fun hm => hv hm i hi)
        rw [e, Affine.dist_apply hp] at h5
        have hd : dist3 q ⟨0, r.y, 0⟩ ≤ R := by linarith
        have hd2 := pow_le_pow_left₀ (dist3_nonneg _ _) hd 2
        rw [dist3_sq] at hd2
        dsimp only at hd2 hy
        refine ⟨q, fun _ => ⟨e, ?_, ?_, fun h => absurd h hm⟩⟩
        · nlinarith [sq_nonneg (q.y - r.y)]
        · have : |q.y - r.y| ≤ R := abs_le_of_sq_le_sq (by nlinarith [sq_nonneg (q.x - 0), sq_nonneg (q.z - 0)]) hR
          have h6 := abs_add_le (q.y - r.y) r.y
          rw [sub_add_cancel] at h6
          linarith
    · exact ⟨⟨0, 0, 0⟩, fun h => absurd h hi⟩
  choose q hq using hq
  have habs : ∀ B : ℝ, (∀ i < s'.size, |(q i).y| ≤ B) →
      |∑ i ∈ Finset.range s'.size, ribWeight s'.size (fun i => (o i).volume) i * (q i).y| ≤ B := by
    intro B hB
    have := average_bounds hn hvol (x := fun i => (q i).y) (lo := -B) (hi := B) fun i hi => abs_le.1 (hB i hi)
    exact abs_le.2 this
  refine ⟨⟨_, _, _, hpt.trans (congrArg Res.ok (apply_average pose w1 _ q fun i hi => (hq i hi).1)),
    disk_average w0 w1 fun i hi => (hq i hi).2.1, habs _ fun i hi => (hq i hi).2.2.1,
    fun hm => habs _ fun i hi => (hq i hi).2.2.2 hm⟩, ?_⟩
  have hdr : ∀ i < s'.size, 0 ≤ (o i).depth ∧ (o i).depth ≤ R := by
    intro i hi
    obtain ⟨r, h1, h2, h3⟩ := hev i hi
    obtain ⟨h4, h5⟩ := C130_rib_partial h2 hp h3 (fun hm => hv hm i hi)
    have := dist3_nonneg (o i).point (pose.apply ⟨0, r.y, 0⟩)
    exact ⟨h4, by linarith [(hribs r (hmem i r h1)).1]⟩
  by_cases he : Scalar.eps ≤ ∑ i ∈ Finset.range s'.size, (o i).volume
  · obtain ⟨d1, d2⟩ := average_bounds hn hvol hdr
    exact ⟨_, hdep he, d1, d2.trans (le_max_left _ _)⟩
  · have hl := (C44_light_partial ho hn (not_le.1 he)).1
    have hsum : 0 ≤ ∑ i ∈ Finset.range s'.size, (o i).volume := Finset.sum_nonneg fun i hi => hvol i (Finset.mem_range.1 hi)
    refine ⟨_, hl, div_nonneg hsum (Nat.cast_nonneg _), ?_⟩
    have h1 : (1 : ℝ) ≤ s'.size := by exact_mod_cast hn
    exact (div_le_self hsum h1).trans ((not_le.1 he).le.trans (le_max_right _ _))

/-- The ribs of a new tyre: their radii are at most `Rx` and their centres at most `Ly` from the middle. -/
theorem Shell.make_ribs_bounds {fresh : Nat → Output ℝ} {n : Nat} (hn : 1 ≤ n) {rx mx ry my ly : ℝ}
    (hv : ValidProfile rx mx ry my ly) {s : Shell ℝ} (hmake : Shell.make fresh n rx mx ry my ly = .ok s) :
    s.size = n ∧ ∀ r ∈ s.ribs, r.radius ≤ rx ∧ |r.center.y| ≤ ly := by
  obtain ⟨s1, e1, hsize, -, hshape, hrb, -⟩ := C04_construct fresh n hn rx mx ry my ly hv
  rw [hmake] at e1
  cases e1
  refine ⟨hsize, fun r hr => ?_⟩
  obtain ⟨i, hlen, e⟩ := List.mem_iff_getElem.1 hr
  have hi : i < n := by have : s.ribs.length = n := hsize; omega
  obtain ⟨ρ, hρ0, hc, hw, hrad, hon⟩ := hrb i hi
  have hr1 : s.ribs[i]? = some r := by rw [List.getElem?_eq_getElem hlen, e]
  have hy : |-ly + (2 * i + 1) * ly / n| ≤ ly := (Shell.real_centre_abs hv.ly_pos hi).le
  rw [Shell.ribCenter, Shell.ribAt, hr1] at hc
  rw [Shell.ribRadius, Shell.ribAt, hr1] at hrad
  have hc : r.center = ⟨0, -ly + (2 * i + 1) * ly / n, 0⟩ := Res.ok.inj hc
  have hrad : r.radius = ρ := Res.ok.inj hrad
  rw [hc]
  refine ⟨?_, hy⟩
  rw [hrad, (radAt_profile hv hy ρ).1 hon]
  exact (radAt_mem hv hy).2

/-- **C130, a new tyre (partial).**  The contact point of a new tyre that is set up on a ground is within `Rx` of the wheel axis, and between
the two sides of the tyre when the geometric method is used. -/
theorem C130_new_tyre_partial {fresh : Nat → Output ℝ} {n : Nat} (hn : 1 ≤ n) {rx mx ry my ly : ℝ}
    (hv : ValidProfile rx mx ry my ly) {s s' : Shell ℝ} (hmake : Shell.make fresh n rx mx ry my ly = .ok s)
    {pose : Affine ℝ} (hp : IsRigid pose) {pol : Policy} {method : String} {b : Bool} (h : SetUp pol s pose method s' b)
    (hvol : method = "geometric" → (∃ m, s.setupMesh pol m pose method = .ok s' b) → ∀ o, Reports pol s' o →
      ∀ i < s'.size, (o i).area ≠ 0 → (o i).volume ≠ 0) :
    (∃ x y z, s'.contactPoint pol = .ok (pose.apply ⟨x, y, z⟩) ∧ x ^ 2 + z ^ 2 ≤ rx ^ 2 ∧ |y| ≤ ly + rx ∧
      (method = "geometric" → |y| ≤ ly)) ∧
    ∃ d, s'.contactDepth pol = .ok d ∧ 0 ≤ d ∧ d ≤ Max.max rx Scalar.eps := by
  obtain ⟨h1, h2⟩ := Shell.make_ribs_bounds hn hv hmake
  have hsize : s'.size = n := by rw [Shell.size, h.rel.ribs]; exact h1
  exact C130_tyre_partial (.make hmake) hp h (by omega) h2 hvol

/-- **C130 is false for contacts without volume.**  With the special values of IEEE 754: if the sections of the triangles have length but no
volume, a contact is reported whose point is nowhere: no comparison that would put it inside the tyre holds. -/
theorem C130_nan_refuted (r : Rib XR) (pose : Affine XR) (cs : List (Rib.Contrib XR))
    (hc : ∀ c ∈ cs, c.volume = .fin 0 ∧ (∃ a : ℝ, Scalar.eps < a ∧ c.area = .fin a) ∧ Finite3 c.point ∧
      Finite3 c.normal ∧ ∃ f, c.friction = .fin f) (hne : cs ≠ []) :
    ∃ o, r.geomFinish pose (cs.foldl Rib.Acc.add Rib.Acc.init) = (true, o) ∧ (zero <=. o.depth) = false ∧
      ∀ bound : XR, (V3.norm (V3.sub o.point (r.centerGrd pose)) <=. bound) = false := by
  obtain ⟨o, h1, -, -, h4, h5, -⟩ := C36_nan_refuted r pose cs hc hne
  refine ⟨o, h1, ?_, fun bound => ?_⟩
  · rw [h4]; rfl
  · rw [h5]
    simp only [V3.norm, V3.sub, V3.sqNorm, V3.dot, XR.nan_sub, XR.nan_mul, XR.nan_add, XR.sqrt_nan]
    cases bound <;> rfl

/-- A tyre half sunk into the road meets the hypotheses of `C130_new_tyre_partial`. -/
example (fresh : Nat → Output ℝ) : ∃ (s s' : Shell ℝ), ValidProfile (1 : ℝ) 2 2 2 1 ∧ Shell.make fresh 1 1 2 2 2 1 = .ok s ∧
    IsRigid (Demo.upright 0) ∧ SetUp .raw s (Demo.upright 0) "geometric" s' true ∧
    s'.contactDepth .raw = .ok 1 ∧ s'.contactPoint .raw = .ok ((Demo.upright 0).apply ⟨0, 0, 0⟩) := by
  have heps := real_eps_le_half
  obtain ⟨s, s', h1, h2, -, h3, h4⟩ := Demo.oneRib_road fresh (h := 0) le_rfl (by norm_num; linarith)
  have hv : Rib.depthVolume 1 2 ((1 : ℝ) - 0) = Real.pi := by simp [Rib.depthVolume]
  have h1n : 1 ≤ s'.size := by omega
  have hpi := Real.pi_gt_d2
  have hvol : ∀ i < s'.size, (0 : ℝ) ≤ Rib.depthVolume 1 2 (1 - 0) := fun _ _ => by rw [hv]; linarith
  have hsum : Scalar.eps ≤ ∑ i ∈ Finset.range s'.size, Rib.depthVolume 1 2 ((1 : ℝ) - 0) := by
    rw [h2, hv]; simp; linarith
  obtain ⟨-, -, -, k1, -, k3⟩ := C43_bounds h4 h1n hvol
  refine ⟨s, s', ⟨by norm_num, by norm_num, by norm_num, by norm_num, by norm_num, by norm_num⟩, h1, Demo.upright_rigid 0, h3,
    k3 hsum _ fun _ _ => by norm_num, ?_⟩
  have : (Demo.upright 0).apply ⟨0, 0, 0⟩ = (⟨0, 0, 0⟩ : V3 ℝ) := by
    simp only [Demo.upright, Affine.apply]
    v3
    simp
  rw [this]
  exact k1 _ fun _ _ => rfl

/-- A geometric contact of non-zero volume on a mesh meets the hypotheses of `C130_geometric_partial`. -/
example : ∃ o : Output ℝ, EvaluatedBy "geometric" (Demo.ribOf 1) (Demo.upright (1 / 2)) o ∧ o.volume ≠ 0 := by
  obtain ⟨o, ho, hA, -, hV⟩ := Demo.ribOf_flat (w := 1) zero_le_one
  have heps := real_eps_le_half
  have hs : (1 / 2 : ℝ) ≤ Real.sqrt (3 / 4) := by
    rw [show (1 / 2 : ℝ) = Real.sqrt ((1 / 2) ^ 2) by rw [Real.sqrt_sq (by norm_num)]]
    exact Real.sqrt_le_sqrt (by norm_num)
  rcases C59_flat_mesh_partial (Demo.ribOf_isRib zero_le_one) (Demo.upright_rigid (1 / 2)) Demo.road_make rfl
    Demo.field_make (by simp [OnPlane, dot3, minus, Demo.road]) (by simp [OnPlane, dot3, minus, Demo.road])
    (by simp [OnPlane, dot3, minus, Demo.road]) (by rw [V3.real_cross]; norm_num [minus])
    (.inl (Demo.field_separates 1 (1 / 2))) (Demo.field_contains 1) (Demo.field_long 1 (1 / 2)) o ho with
    ⟨-, om, h1, -, -, -, h5, -⟩ | ⟨⟨h1, -⟩, -⟩
  · have hne : om.volume ≠ 0 := by rw [h5]; linarith
    exact ⟨om, .mesh [Demo.field] true (by simpa [Rib.envelopMesh] using h1), hne⟩
  · rw [hA] at h1; linarith

end Enve
