import Verif.Model.Shell
import Verif.Spec.Rigid

/-! # The states a shell can be in

`Reachable pol s`: `s` results from constructing a shell and any finite sequence of calls of its
public, state changing members, whether they return or throw.  (A call with undefined behaviour has
no successor state.) -/

namespace Enve
variable {α : Type} [Scalar α]

inductive Shell.Reachable (pol : Policy) : Shell α → Prop where
  | make {fresh : Nat → Output α} {n : Nat} {rx mx ry my ly : α} {s : Shell α} :
      Shell.make fresh n rx mx ry my ly = .ok s → Reachable pol s
  | resize {fresh : Nat → Output α} {n : Nat} {s s' : Shell α} : Reachable pol s →
      (s.resize fresh n = .ok s' () ∨ ∃ e, s.resize fresh n = .throw s' e) → Reachable pol s'
  | translate {s : Shell α} (v : V3 α) : Reachable pol s → Reachable pol (s.translate v)
  | rotate {s : Shell α} (angle : α) (axis : V3 α) : Reachable pol s →
      Reachable pol (s.rotate angle axis)
  | transform {s : Shell α} (pose : Affine α) : Reachable pol s → Reachable pol (s.transform pose)
  | updateBBox {s : Shell α} : Reachable pol s → Reachable pol s.updateBBox
  | setupMesh {s s' : Shell α} {ground : Mesh α} {pose : Affine α} {method : String} {b : Bool} :
      Reachable pol s → (s.setupMesh pol ground pose method = .ok s' b ∨
        ∃ e, s.setupMesh pol ground pose method = .throw s' e) → Reachable pol s'
  | setupFlat {s s' : Shell α} {ground : Flat α} {pose : Affine α} {method : String} {b : Bool} :
      Reachable pol s → (s.setupFlat pol ground pose method = .ok s' b ∨
        ∃ e, s.setupFlat pol ground pose method = .throw s' e) → Reachable pol s'

/-- `Evolves pol s0 s`: `s` results from `s0` by any finite sequence of pose operations, box updates
and setups, whether they return or throw. -/
inductive Shell.Evolves (pol : Policy) (s0 : Shell α) : Shell α → Prop where
  | refl : Evolves pol s0 s0
  | translate {s : Shell α} (v : V3 α) : Evolves pol s0 s → Evolves pol s0 (s.translate v)
  | rotate {s : Shell α} (angle : α) (axis : V3 α) : Evolves pol s0 s →
      Evolves pol s0 (s.rotate angle axis)
  | transform {s : Shell α} (pose : Affine α) : Evolves pol s0 s → Evolves pol s0 (s.transform pose)
  | updateBBox {s : Shell α} : Evolves pol s0 s → Evolves pol s0 s.updateBBox
  | setupMesh {s s' : Shell α} {ground : Mesh α} {pose : Affine α} {method : String} {b : Bool} :
      Evolves pol s0 s → (s.setupMesh pol ground pose method = .ok s' b ∨
        ∃ e, s.setupMesh pol ground pose method = .throw s' e) → Evolves pol s0 s'
  | setupFlat {s s' : Shell α} {ground : Flat α} {pose : Affine α} {method : String} {b : Bool} :
      Evolves pol s0 s → (s.setupFlat pol ground pose method = .ok s' b ∨
        ∃ e, s.setupFlat pol ground pose method = .throw s' e) → Evolves pol s0 s'

end Enve

namespace Enve
open Spec

/-- Histories in which every pose given by the caller is rigid and every rotation axis has unit
length. -/
inductive Shell.RigidHistory (pol : Policy) : Shell ℝ → Prop where
  | make {fresh : Nat → Output ℝ} {n : Nat} {rx mx ry my ly : ℝ} {s : Shell ℝ} :
      Shell.make fresh n rx mx ry my ly = .ok s → RigidHistory pol s
  | resize {fresh : Nat → Output ℝ} {n : Nat} {s s' : Shell ℝ} : RigidHistory pol s →
      (s.resize fresh n = .ok s' () ∨ ∃ e, s.resize fresh n = .throw s' e) → RigidHistory pol s'
  | translate {s : Shell ℝ} (v : V3 ℝ) : RigidHistory pol s → RigidHistory pol (s.translate v)
  | rotate {s : Shell ℝ} (angle : ℝ) (axis : V3 ℝ) : length3 axis = 1 → RigidHistory pol s →
      RigidHistory pol (s.rotate angle axis)
  | transform {s : Shell ℝ} (pose : Affine ℝ) : IsRigid pose → RigidHistory pol s →
      RigidHistory pol (s.transform pose)
  | updateBBox {s : Shell ℝ} : RigidHistory pol s → RigidHistory pol s.updateBBox
  | setupMesh {s s' : Shell ℝ} {ground : Mesh ℝ} {pose : Affine ℝ} {method : String} {b : Bool} :
      IsRigid pose → RigidHistory pol s → (s.setupMesh pol ground pose method = .ok s' b ∨
        ∃ e, s.setupMesh pol ground pose method = .throw s' e) → RigidHistory pol s'
  | setupFlat {s s' : Shell ℝ} {ground : Flat ℝ} {pose : Affine ℝ} {method : String} {b : Bool} :
      IsRigid pose → RigidHistory pol s → (s.setupFlat pol ground pose method = .ok s' b ∨
        ∃ e, s.setupFlat pol ground pose method = .throw s' e) → RigidHistory pol s'

end Enve
