import Verif.Spec.Rib
import Verif.Lemmas.Shell

/-! # Every rib of a reachable shell is a disk around a point of the y axis -/

namespace Enve
open Scalar Spec

theorem Rib.make_isRib (id : Int) {radius width : ℝ} (y angle : ℝ) (h : 0 < radius) (hw : 0 ≤ width) :
    IsRib (Rib.make id radius y width angle) :=
  ⟨h, hw, by simp [Rib.make], by simp [Rib.make, V3.ey]⟩


namespace Shell

/-- The ribs `resizeLoop` adds. -/
theorem resizeLoop_isRib {shape : Shape ℝ} {c : ℝ} {n : Nat} {k i : Nat} {y : ℝ} {acc ribs : List (Rib ℝ)}
    (hc : c = 2 * shape.ly / n)
    (h : resizeLoop shape c k i y acc = .ok ribs () ∨ ∃ e, resizeLoop shape c k i y acc = .throw ribs e) :
    ∀ r ∈ ribs, r ∈ acc ∨ IsRib r := by
  induction k generalizing i y acc with
  | zero =>
    intro r hr
    rcases h with h | ⟨e, h⟩
    · simp only [resizeLoop, MRes.ok.injEq] at h; rw [h.1]; exact .inl hr
    · cases h
  | succ k ih =>
    rw [resizeLoop] at h
    split at h
    · rename_i r0 hr
      intro r hmem
      rcases ih h r hmem with hm | hm
      · rw [List.mem_append, List.mem_singleton] at hm
        rcases hm with hm | rfl
        · exact .inl hm
        · right
          simp only [Res.bind_eq_ok] at hr
          obtain ⟨rad, h0, a, -, _, h1, _, -, _, -, hr⟩ := hr
          rw [← Res.ok.inj hr]
          refine Rib.make_isRib _ _ _ ?_ ?_
          · by_contra hneg
            have : (zero <. rad) = false := by simpa using hneg
            rw [this] at h1
            cases h1
          · have hly : 0 ≤ shape.ly := by
              by_contra hneg
              have : shape.checkWidthBound (y +. c) = false := by
                unfold Shape.checkWidthBound
                rw [if_pos]
                simp only [real_lt, real_abs, decide_eq_true_eq]
                exact (not_le.1 hneg).trans_le (abs_nonneg _)
              unfold Shape.surfaceRadius at h0
              rw [this] at h0
              cases h0
            rw [hc]; positivity
      · exact .inr hm
    · intro r hr
      rcases h with h | ⟨e, h⟩
      · cases h
      · simp only [MRes.throw.injEq] at h; rw [h.1]; exact .inl hr
    · rcases h with h | ⟨e, h⟩ <;> cases h

theorem resize_isRib {fresh : Nat → Output ℝ} {s s' : Shell ℝ} {n : Nat} (hs : ∀ r ∈ s.ribs, IsRib r)
    (h : s.resize fresh n = .ok s' () ∨ ∃ e, s.resize fresh n = .throw s' e) : ∀ r ∈ s'.ribs, IsRib r := by
  unfold resize at h
  split at h
  · rcases h with h | ⟨e, h⟩
    · cases h
    · cases h; exact hs
  · dsimp only at h
    split at h
    · rename_i ribs u hl
      rcases h with h | ⟨e, h⟩
      · cases h
        intro r hr
        have := resizeLoop_isRib (n := n) (by simp [Shape.surfaceMaxWidth]) (.inl hl) r hr
        simpa using this
      · cases h
    · rename_i ribs m hl
      rcases h with h | ⟨e, h⟩
      · cases h
      · cases h
        intro r hr
        have := resizeLoop_isRib (n := n) (by simp [Shape.surfaceMaxWidth]) (.inr ⟨_, hl⟩) r hr
        simpa using this
    · rcases h with h | ⟨e, h⟩ <;> cases h

/-- Every rib of a reachable shell is a disk of positive radius around a point of the y axis, orthogonal
to it, of nonnegative width. -/
theorem Reachable.isRib {pol : Policy} {s : Shell ℝ} (h : s.Reachable pol) : ∀ r ∈ s.ribs, IsRib r := by
  induction h with
  | make h =>
    obtain ⟨s0, s1, rfl, hr, rfl⟩ := make_ok h
    show ∀ r ∈ s1.ribs, IsRib r
    exact resize_isRib (by simp) (.inl hr)
  | resize _ h ih => exact resize_isRib ih h
  | translate _ _ ih => exact ih
  | rotate _ _ _ ih => exact ih
  | transform _ _ ih => exact ih
  | updateBBox _ ih => exact ih
  | setupMesh _ h ih =>
    rcases h with h | ⟨e, h⟩
    · rw [(setupMesh_rel (.inl ⟨_, h⟩)).ribs]; exact ih
    · rw [(setupMesh_rel (.inr ⟨e, h⟩)).ribs]; exact ih
  | setupFlat _ h ih =>
    rcases h with h | ⟨e, h⟩
    · rw [(setupFlat_rel (.inl ⟨_, h⟩)).ribs]; exact ih
    · rw [(setupFlat_rel (.inr ⟨e, h⟩)).ribs]; exact ih

end Shell
end Enve
