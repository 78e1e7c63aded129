import Verif.Lemmas.Shell
import Verif.Lemmas.RealVec
import Verif.Props.ShellProps
import Verif.Props.MeshProps

/-! # `setup`: record storage, candidates, flags, errors, history independence
(C06, C18, C30, C38, C39, C40) -/

namespace Enve
open Scalar Spec
variable {α : Type} [Scalar α]

namespace Shell

/-! ## Reading the records -/

omit [Scalar α] in
theorem readFrom_ok {pol : Policy} {v : RecVec α} (k i : Nat)
    (h : ∀ j < k, v.accessible pol (i + j) = true) :
    readFrom pol v k i = .ok ((List.range k).map fun j => v.mem (i + j)) := by
  induction k generalizing i with
  | zero => rfl
  | succ k ih =>
    have h0 : v.accessible pol i = true := by simpa using h 0 (by omega)
    rw [readFrom, RecVec.read, if_pos h0, Res.bind_ok, ih (i + 1) (fun j hj => by
      rw [show i + 1 + j = i + (j + 1) by omega]; exact h (j + 1) (by omega)), Res.bind_ok, Res.pure_eq,
      List.range_succ_eq_map]
    simp only [List.map_cons, Nat.add_zero, List.map_map, Res.ok.injEq, List.cons.injEq, true_and]
    apply List.map_congr_left
    intro j _
    simp only [Function.comp_apply]
    congr 1
    omega

omit [Scalar α] in
theorem readFrom_ub {pol : Policy} {v : RecVec α} (k i j : Nat) (hj : j < k)
    (h : v.accessible pol (i + j) = false) : (readFrom pol v k i).isUb = true := by
  induction k generalizing i j with
  | zero => omega
  | succ k ih =>
    rw [readFrom, RecVec.read]
    split
    · rename_i h0
      rw [Res.bind_ok]
      cases j with
      | zero => rw [Nat.add_zero, h0] at h; cases h
      | succ j =>
        have := ih (i + 1) j (by omega) (by rwa [show i + 1 + j = i + (j + 1) by omega])
        cases hr : readFrom pol v k (i + 1) with
        | ok _ => rw [hr] at this; cases this
        | throw _ => rw [hr] at this; cases this
        | ub w => rfl
    · rfl

omit [Scalar α] in
theorem readFrom_ub_inv {pol : Policy} {v : RecVec α} {k i : Nat}
    (h : (readFrom pol v k i).isUb = true) : ∃ j < k, v.accessible pol (i + j) = false := by
  by_contra hn
  push Not at hn
  rw [readFrom_ok k i fun j hj => by simpa using hn j hj] at h
  cases h

/-! ## Filling the caller's vector -/

theorem resizeVec_length {β : Type} (v : List β) (n : Nat) (d : β) : (resizeVec v n d).length = n := by
  simp only [resizeVec, List.length_append, List.length_take, List.length_replicate]
  omega

/-- When every entry exists and every value can be computed, exactly the entries `i, …, i+k-1` are
replaced. -/
theorem fillLoop_ok {β : Type} {f : Nat → Res β} {b : Nat → β} (k i : Nat) (v : List β)
    (hv : i + k ≤ v.length) (hf : ∀ j, i ≤ j → j < i + k → f j = .ok (b j)) :
    ∃ v', fillLoop f k i v = .ok v' ∧ v'.length = v.length ∧
      ∀ j, v'[j]? = if i ≤ j ∧ j < i + k then some (b j) else v[j]? := by
  induction k generalizing i v with
  | zero =>
    refine ⟨v, rfl, rfl, fun j => ?_⟩
    rw [if_neg (by omega)]
  | succ k ih =>
    obtain ⟨v', h1, h2, h3⟩ := ih (i + 1) (v.set i (b i)) (by rw [List.length_set]; omega)
      fun j a c => hf j (by omega) (by omega)
    refine ⟨v', ?_, by rw [h2, List.length_set], fun j => ?_⟩
    · rw [fillLoop, if_pos (by omega), hf i le_rfl (by omega), Res.bind_ok, h1]
    · rw [h3]
      by_cases hj : j = i
      · subst hj
        rw [if_neg (by omega), if_pos (by omega), List.getElem?_set_self (by omega)]
      · rw [List.getElem?_set_ne (Ne.symm hj)]
        congr 1
        apply propext
        omega

/-- When a value to be written cannot be computed, or the entry does not exist, the behaviour is
undefined. -/
theorem fillLoop_ub {β : Type} {f : Nat → Res β} (hf : ∀ j, (f j).isOk = true ∨ (f j).isUb = true)
    (k i : Nat) (v : List β) (h : v.length < i + k ∨ ∃ j, i ≤ j ∧ j < i + k ∧ (f j).isUb = true) (hk : 0 < k) :
    (fillLoop f k i v).isUb = true := by
  induction k generalizing i v with
  | zero => omega
  | succ k ih =>
    rw [fillLoop]
    split
    · rename_i hi
      have h1 := hf i
      cases hfi : f i with
      | throw m => rw [hfi] at h1; rcases h1 with h1 | h1 <;> cases h1
      | ub w => rfl
      | ok b =>
        rw [Res.bind_ok]
        have h' : (v.set i b).length < i + 1 + k ∨ ∃ j, i + 1 ≤ j ∧ j < i + 1 + k ∧ (f j).isUb = true := by
          rcases h with h | ⟨j, a, c, e⟩
          · exact .inl (by rw [List.length_set]; omega)
          · refine .inr ⟨j, ?_, by omega, e⟩
            rcases Nat.lt_or_ge i j with h | h
            · exact h
            · obtain rfl : j = i := by omega
              rw [hfi] at e; cases e
        refine ih (i + 1) (v.set i b) h' ?_
        rcases h' with h' | ⟨j, a, c, -⟩
        · rw [List.length_set] at h'; omega
        · omega
    · rfl

omit [Scalar α] in
theorem read_ok_or_ub (pol : Policy) (v : RecVec α) (i : Nat) :
    (∃ o, v.read pol i = .ok o) ∨ (v.read pol i).isUb = true := by
  unfold RecVec.read
  split
  · exact .inl ⟨_, rfl⟩
  · exact .inr rfl

theorem accessible_strict {s : Shell α} (h : s.Inv) (i : Nat) :
    s.out.accessible .strict i = false := by
  simp [RecVec.accessible, h.out_size]

theorem accessible_raw {s : Shell α} (h : s.Inv) (i : Nat) :
    s.out.accessible .raw i = decide (i < 200) := by
  simp [RecVec.accessible, h.out_size, h.out_cap]

omit [Scalar α] in
theorem isUb_bind {β γ : Type} {x : Res β} {f : β → Res γ} (h : x.isUb = true) :
    (x >>= f).isUb = true := by
  cases x <;> first | rfl | cases h

omit [Scalar α] in
/-- The loop over the ribs has undefined behaviour when a record is missing and no rib throws. -/
theorem ribLoop_ub {pol : Policy} {comb : Bool → Bool → Bool}
    {f : Nat → Rib α → Res (Bool × Output α)} {ribs : List (Rib α)} {i : Nat} {out : RecVec α}
    {b : Bool} (j : Nat) (hj : j < ribs.length) (h : out.accessible pol (i + j) = false)
    (hf : ∀ k r, k < j → ribs[k]? = some r → ∃ c, f (i + k) r = .ok c) :
    (ribLoop pol comb f ribs i out b).isUb = true := by
  induction ribs generalizing i out b j with
  | nil => simp at hj
  | cons r rs ih =>
    rw [ribLoop]
    split
    · rfl
    · rename_i ha
      simp only [Bool.not_eq_true', Bool.not_eq_false] at ha
      cases j with
      | zero => rw [Nat.add_zero, ha] at h; cases h
      | succ j =>
        obtain ⟨⟨c, o⟩, hc⟩ := hf 0 r (by omega) rfl
        rw [Nat.add_zero] at hc
        rw [hc]
        dsimp only
        apply ih j (by simpa using hj)
        · rw [accessible_set, show i + 1 + j = i + (j + 1) by omega]; exact h
        · intro k r' hk hr'
          rw [show i + 1 + k = i + (k + 1) by omega]
          exact hf (k + 1) r' (by omega) (by simpa using hr')

omit [Scalar α] in
/-- No undefined behaviour when all records exist and no rib has any. -/
theorem ribLoop_not_ub {pol : Policy} {comb : Bool → Bool → Bool}
    {f : Nat → Rib α → Res (Bool × Output α)} {ribs : List (Rib α)} {i : Nat} {out : RecVec α}
    {b : Bool} (ha : ∀ j, j < ribs.length → out.accessible pol (i + j) = true)
    (hf : ∀ j r, ribs[j]? = some r → (f (i + j) r).isUb = false) :
    (ribLoop pol comb f ribs i out b).isUb = false := by
  induction ribs generalizing i out b with
  | nil => rfl
  | cons r rs ih =>
    have ha0 : out.accessible pol i = true := by simpa using ha 0 (by simp)
    rw [ribLoop]
    simp only [ha0, Bool.not_true, Bool.false_eq_true, if_false]
    have hf0 := hf 0 r rfl
    rw [Nat.add_zero] at hf0
    split
    · apply ih
      · intro j hj
        rw [accessible_set, show i + 1 + j = i + (j + 1) by omega]
        exact ha (j + 1) (by simpa using hj)
      · intro j r' hj
        rw [show i + 1 + j = i + (j + 1) by omega]
        exact hf (j + 1) r' (by simpa using hj)
    · rfl
    · rename_i h; rw [h] at hf0; cases hf0

omit [Scalar α] in
theorem withOut_isUb {s : Shell α} {m : MRes (RecVec α) Bool} :
    (withOut s m).isUb = m.isUb := by cases m <;> rfl

end Shell

/-! ## Evaluation of a rib -/

namespace Inter

theorem lineTriangleSeg_not_ub (l : Line α) (t : Triangle α) (tol : α) :
    (lineTriangleSeg l t tol).isUb = false := by
  unfold lineTriangleSeg
  repeat' (first | split | rfl)

theorem planeTriangle_not_ub (p : Plane α) (t : Triangle α) (tol : α) :
    (planeTriangle p t tol).isUb = false := by
  unfold planeTriangle
  split
  · exact lineTriangleSeg_not_ub _ _ _
  · rfl

theorem triangleDisk_not_ub (t : Triangle α) (d : Disk α) (tol : α) :
    (triangleDisk t d tol).isUb = false := by
  unfold triangleDisk
  have := planeTriangle_not_ub d.layingPlane t tol
  cases h : planeTriangle d.layingPlane t tol with
  | ok o => cases o <;> rfl
  | throw m => rfl
  | ub w => rw [h] at this; cases this

end Inter

namespace Rib

theorem geomLoop_not_ub (r : Rib α) (pose : Affine α) (ts : List (TriangleGround α)) (acc : Acc α) :
    (geomLoop r pose ts acc).isUb = false := by
  induction ts generalizing acc with
  | nil => rfl
  | cons t ts ih =>
    rw [geomLoop]
    have := Inter.triangleDisk_not_ub t.tri (r.diskGrd pose) Scalar.eps
    cases h : Inter.triangleDisk t.tri (r.diskGrd pose) Scalar.eps with
    | ok o =>
      rw [Res.bind_ok]
      cases o with
      | none => exact ih acc
      | some seg =>
        dsimp only
        split
        · rfl
        · exact ih _
    | throw m => rfl
    | ub w => rw [h] at this; cases this

theorem envelopMesh_not_ub (r : Rib α) (ts : List (TriangleGround α)) (pose : Affine α)
    (method : String) : (r.envelopMesh ts pose method).isUb = false := by
  unfold envelopMesh
  split
  · unfold envelopGeometricMesh
    have := geomLoop_not_ub r pose ts Acc.init
    cases h : geomLoop r pose ts Acc.init with
    | ok a => rfl
    | throw m => rfl
    | ub w => rw [h] at this; cases this
  · split <;> rfl

theorem envelopFlat_not_ub (r : Rib α) (g : Flat α) (pose : Affine α) (method : String) :
    (r.envelopFlat g pose method).isUb = false := by
  unfold envelopFlat
  split
  · rfl
  · split <;> rfl

theorem envelopFlat_ok (r : Rib α) (g : Flat α) (pose : Affine α) {method : String}
    (h : method = "geometric" ∨ method = "sampling") : ∃ c, r.envelopFlat g pose method = .ok c := by
  unfold envelopFlat
  rcases h with rfl | rfl
  · exact ⟨_, rfl⟩
  · exact ⟨_, rfl⟩

end Rib

/-! ## C06: record storage -/

/-- All queries of the contact records of all ribs. -/
structure Spec.AllQueries (pol : Policy) (s : Shell α) (good : ∀ {β : Type}, Res β → Prop) : Prop where
  point : good (s.contactPoint pol)
  normal : good (s.contactNormal pol)
  friction : good (s.contactFriction pol)
  depth : good (s.contactDepth pol)
  area : good (s.contactArea pol)
  volume : good (s.contactVolume pol)
  pointVec : ∀ d v, good (s.contactPointVec pol d v)
  normalVec : ∀ d v, good (s.contactNormalVec pol d v)
  frictionVec : ∀ d v, good (s.contactFrictionVec pol d v)
  depthVec : ∀ d v, good (s.contactDepthVec pol d v)
  areaVec : ∀ d v, good (s.contactAreaVec pol d v)
  volumeVec : ∀ d v, good (s.contactVolumeVec pol d v)
  affine : good (s.contactPointAffine pol)
  angles : good (s.relativeAngles pol)

/-- All queries of the contact record of rib `i`. -/
structure Spec.RibQueries (pol : Policy) (s : Shell α) (i : Nat) (good : ∀ {β : Type}, Res β → Prop) :
    Prop where
  point : good (s.contactPointAt pol i)
  normal : good (s.contactNormalAt pol i)
  friction : good (s.contactFrictionAt pol i)
  depth : good (s.contactDepthAt pol i)
  area : good (s.contactAreaAt pol i)
  volume : good (s.contactVolumeAt pol i)
  affine : good (s.contactPointAffineAt pol i)
  angles : good (s.relativeAnglesAt pol i)

theorem Shell.allQueries_ub {pol : Policy} {s : Shell α} (h : (s.records pol).isUb = true) :
    AllQueries pol s fun r => r.isUb = true := by
  have hv : (s.contactVolume pol).isUb = true := Shell.isUb_bind h
  have hp : (s.contactPoint pol).isUb = true := Shell.isUb_bind hv
  have hn : (s.contactNormal pol).isUb = true := Shell.isUb_bind hv
  have ha : (s.contactPointAffine pol).isUb = true := Shell.isUb_bind hp
  obtain ⟨j, hj, hacc⟩ := Shell.readFrom_ub_inv h
  rw [Nat.zero_add] at hacc
  have hvec : ∀ {β : Type} (g : Output α → β) (v : List β),
      (Shell.fillLoop (fun i => do return g (← s.out.read pol i)) s.size 0 v).isUb = true := by
    intro β g v
    refine Shell.fillLoop_ub (fun i => ?_) _ _ _ (.inr ⟨j, by omega, by omega, ?_⟩) (by omega)
    · rcases Shell.read_ok_or_ub pol s.out i with ⟨o, ho⟩ | ho
      · exact .inl (by rw [ho]; rfl)
      · exact .inr (Shell.isUb_bind ho)
    · exact Shell.isUb_bind (by simp [RecVec.read, hacc, Res.isUb])
  exact ⟨hp, hn, Shell.isUb_bind hv, Shell.isUb_bind hv, Shell.isUb_bind h, hv, fun _ _ => hvec _ _,
    fun _ _ => hvec _ _, fun _ _ => hvec _ _, fun _ _ => hvec _ _, fun _ _ => hvec _ _,
    fun _ _ => hvec _ _, ha, Shell.isUb_bind ha⟩

theorem Shell.allQueries_ok {pol : Policy} {s : Shell α} {os : List (Output α)}
    (h : s.records pol = .ok os) : AllQueries pol s fun r => r.isOk = true := by
  have hv : ∃ v, s.contactVolume pol = .ok v := by rw [Shell.contactVolume, h]; exact ⟨_, rfl⟩
  obtain ⟨v, hv⟩ := hv
  have hp : ∃ p, s.contactPoint pol = .ok p := by
    rw [Shell.contactPoint, hv, h]
    simp only [Res.bind_ok]
    split <;> exact ⟨_, rfl⟩
  have hn : ∃ p, s.contactNormal pol = .ok p := by
    rw [Shell.contactNormal, hv, h]
    simp only [Res.bind_ok]
    split <;> exact ⟨_, rfl⟩
  have hf : ∃ p, s.contactFriction pol = .ok p := by
    rw [Shell.contactFriction, hv, h]
    simp only [Res.bind_ok]
    split <;> exact ⟨_, rfl⟩
  have hd : ∃ p, s.contactDepth pol = .ok p := by
    rw [Shell.contactDepth, hv, h]
    simp only [Res.bind_ok]
    split <;> exact ⟨_, rfl⟩
  have ha : ∃ p, s.contactPointAffine pol = .ok p := by
    obtain ⟨p, hp⟩ := hp
    obtain ⟨n, hn⟩ := hn
    rw [Shell.contactPointAffine, hp, hn]; exact ⟨_, rfl⟩
  have hr : ∃ p, s.relativeAngles pol = .ok p := by
    obtain ⟨p, ha⟩ := ha
    rw [Shell.relativeAngles, ha]; exact ⟨_, rfl⟩
  have hread : ∀ i < s.size, s.out.read pol i = .ok (s.out.mem i) := by
    intro i hi
    rcases hacc : s.out.accessible pol i with _ | _
    · have := Shell.readFrom_ub s.size 0 i hi (pol := pol) (v := s.out) (by simpa using hacc)
      rw [show Shell.readFrom pol s.out s.size 0 = .ok os from h] at this
      cases this
    · rw [RecVec.read, if_pos hacc]
  have hvec : ∀ {β : Type} (g : Output α → β) (d : β) (v : List β), (Shell.fillLoop
      (fun i => do return g (← s.out.read pol i)) s.size 0 (Shell.resizeVec v s.size d)).isOk = true := by
    intro β g d v
    obtain ⟨v', h', -⟩ := Shell.fillLoop_ok (f := fun i => do return g (← s.out.read pol i))
      (b := fun i => g (s.out.mem i)) s.size 0 (Shell.resizeVec v s.size d)
      (by rw [Shell.resizeVec_length]; omega) (fun i _ hi => by rw [hread i (by omega)]; rfl)
    rw [h']; rfl
  obtain ⟨_, hp⟩ := hp
  obtain ⟨_, hn⟩ := hn
  obtain ⟨_, hf⟩ := hf
  obtain ⟨_, hd⟩ := hd
  obtain ⟨_, ha⟩ := ha
  obtain ⟨_, hr⟩ := hr
  refine ⟨by rw [hp]; rfl, by rw [hn]; rfl, by rw [hf]; rfl, by rw [hd]; rfl, ?_, by rw [hv]; rfl,
    fun _ _ => hvec _ _ _, fun _ _ => hvec _ _ _, fun _ _ => hvec _ _ _, fun _ _ => hvec _ _ _,
    fun _ _ => hvec _ _ _, fun _ _ => hvec _ _ _, by rw [ha]; rfl, by rw [hr]; rfl⟩
  · rw [Shell.contactArea, h]; rfl

/-- **C06 is false, by the C++ standard.**  Whatever the history, the vector of records of a shell is
empty: every setup on a flat ground and every record query has undefined behaviour as soon as there
is a rib (scalars of any kind). -/
theorem C06_standard_refuted (s : Shell α) (h : s.Reachable .strict) (hn : 1 ≤ s.size) :
    (∀ ground pose method, (s.setupFlat .strict ground pose method).isUb = true) ∧
    (AllQueries .strict s fun r => r.isUb = true) ∧
    ∀ i, RibQueries .strict s i fun r => r.isUb = true := by
  have hacc := fun i => Shell.accessible_strict h.inv i
  refine ⟨fun g p m => ?_, ?_, fun i => ?_⟩
  · unfold Shell.setupFlat
    dsimp only
    rw [Shell.withOut_isUb]
    exact Shell.ribLoop_ub 0 hn (hacc _) (fun k r hk => absurd hk (Nat.not_lt_zero k))
  · exact Shell.allQueries_ub (Shell.readFrom_ub _ 0 0 hn (hacc _))
  · have hr : (s.out.read .strict i).isUb = true := by simp [RecVec.read, hacc, Res.isUb]
    have ha : (s.contactPointAffineAt .strict i).isUb = true := Shell.isUb_bind hr
    exact ⟨Shell.isUb_bind hr, Shell.isUb_bind hr, Shell.isUb_bind hr, Shell.isUb_bind hr,
      Shell.isUb_bind hr, Shell.isUb_bind hr, ha, Shell.isUb_bind ha⟩

/-- **C06 is false even if the reserved storage may be used.**  With more than 200 ribs the records do
not fit into it: setup on a flat ground and every query run past the end. -/
theorem C06_more_than_200_ribs_refuted (s : Shell α) (h : s.Reachable .raw) (hn : 200 < s.size) :
    (∀ ground pose method, method = "geometric" ∨ method = "sampling" →
      (s.setupFlat .raw ground pose method).isUb = true) ∧
    AllQueries .raw s fun r => r.isUb = true := by
  have hacc := fun i => Shell.accessible_raw h.inv i
  refine ⟨fun g p m hm => ?_, ?_⟩
  · unfold Shell.setupFlat
    dsimp only
    rw [Shell.withOut_isUb]
    refine Shell.ribLoop_ub 200 hn ?_ (fun k r _ _ => Rib.envelopFlat_ok r g p hm)
    show s.out.accessible .raw (0 + 200) = false
    rw [hacc]; rfl
  · exact Shell.allQueries_ub (Shell.readFrom_ub _ 0 200 hn (by rw [hacc]; rfl))

/-- **C06 (partial).**  If the reserved storage may be used and there are at most 200 ribs, no setup
and no query leaves it: setup on a flat ground is always defined, setup on a mesh is defined when the
box query of the mesh is, all queries of all ribs succeed, and so do the queries of each rib.
Missing: what `C06_standard_refuted` and `C06_more_than_200_ribs_refuted` say. -/
theorem C06_reserved_storage_partial (s : Shell α) (h : s.Reachable .raw) (hn : s.size ≤ 200) :
    (∀ ground pose method, (s.setupFlat .raw ground pose method).isUb = false) ∧
    (∀ ground pose method, (ground.intersection (s.transform pose).updateBBox.bbox).isUb = false →
      (s.setupMesh .raw ground pose method).isUb = false) ∧
    (AllQueries .raw s fun r => r.isOk = true) ∧
    ∀ i < s.size, RibQueries .raw s i fun r => r.isOk = true := by
  have hacc : ∀ i < s.ribs.length, s.out.accessible .raw i = true := fun i hi => by
    rw [Shell.accessible_raw h.inv]
    have : s.ribs.length ≤ 200 := hn
    exact decide_eq_true (by omega)
  refine ⟨fun g p m => ?_, fun g p m hg => ?_, ?_, fun i hi => ?_⟩
  · unfold Shell.setupFlat
    dsimp only
    rw [Shell.withOut_isUb]
    exact Shell.ribLoop_not_ub (fun j hj => by rw [Nat.zero_add]; exact hacc j hj)
      (fun j r _ => Rib.envelopFlat_not_ub r g p m)
  · cases hi : g.intersection (s.transform p).updateBBox.bbox with
    | throw m => simp [Shell.setupMesh, hi, MRes.isUb]
    | ub w => rw [hi] at hg; cases hg
    | ok loc =>
      by_cases hne : loc = []
      · subst hne
        rw [Shell.setupMesh_none hi, Shell.withOut_isUb]
        exact Shell.ribLoop_not_ub (fun j hj => by rw [Nat.zero_add]; exact hacc j hj)
          (fun j r _ => rfl)
      · rw [Shell.setupMesh_some h.inv.cands hi hne, Shell.withOut_isUb]
        exact Shell.ribLoop_not_ub (fun j hj => by rw [Nat.zero_add]; exact hacc j hj)
          (fun j r _ => Rib.envelopMesh_not_ub r _ p m)
  · exact Shell.allQueries_ok (Shell.readFrom_ok s.size 0 fun j hj => by
      rw [Nat.zero_add]; exact hacc j hj)
  · have hr : s.out.read .raw i = .ok (s.out.mem i) := by rw [RecVec.read, if_pos (hacc i hi)]
    have hrib : ∃ r, s.ribAt i = .ok r := by
      rw [Shell.ribAt, List.getElem?_eq_getElem hi]; exact ⟨_, rfl⟩
    obtain ⟨r, hrib⟩ := hrib
    refine ⟨?_, ?_, ?_, ?_, ?_, ?_, ?_, ?_⟩
    · rw [Shell.contactPointAt, hr]; rfl
    · rw [Shell.contactNormalAt, hr]; rfl
    · rw [Shell.contactFrictionAt, hr]; rfl
    · rw [Shell.contactDepthAt, hr]; rfl
    · rw [Shell.contactAreaAt, hr]; rfl
    · rw [Shell.contactVolumeAt, hr]; rfl
    · rw [Shell.contactPointAffineAt, hr]; rfl
    · rw [Shell.relativeAnglesAt, Shell.contactPointAffineAt, hr]
      simp only [Res.bind_ok, hrib, Res.pure_eq]
      rfl

/-- Shells with 1, 200 and 201 ribs exist, for either way to treat the storage. -/
example (pol : Policy) (n : Nat) (hn : 1 ≤ n) : ∃ s : Shell ℝ, s.Reachable pol ∧ s.size = n := by
  obtain ⟨s, h1, h2, -⟩ := C04_construct (fun _ => Output.default) n hn (1/2) 4 (1/4) 2
    (1/8) ⟨by norm_num, by norm_num, by norm_num, by norm_num, by norm_num, by norm_num⟩
  exact ⟨s, .make h1, h2⟩

/-! ## C18: candidates -/

/-- The triangle has a point on the plane of the rib at position `y` (that plane is
`{p : (p - origin)·(y axis) = y}`). -/
def Spec.MeetsRibPlane (pose : Affine ℝ) (y : ℝ) (t : Triangle ℝ) : Prop :=
  ∃ p, InTriangle t.v0 t.v1 t.v2 p ∧
    dot3 ⟨p.x - pose.trans.x, p.y - pose.trans.y, p.z - pose.trans.z⟩ pose.linear.c1 = y

theorem Scalar.sign_real (x : ℝ) : (Scalar.sign x : Int) = if 0 < x then 1 else if x < 0 then -1 else 0 := by
  unfold Scalar.sign
  simp only [real_lt, real_zero]
  rcases lt_trichotomy x 0 with h | h | h
  · simp [h, h.le.not_gt]
  · simp [h]
  · simp [h, h.le.not_gt]

/-- The candidate test is exact. -/
theorem Shell.isCandidate_iff {pose : Affine ℝ} (hp : IsRigid pose) (y : ℝ) (t : TriangleGround ℝ) :
    Shell.isCandidate (Plane.normalize ⟨pose.trans, pose.linear.c1⟩) true y t = true ↔
      MeetsRibPlane pose y t.tri := by
  have hn : V3.normalized pose.linear.c1 = pose.linear.c1 := V3.normalized_unit hp.unit1
  have hsd : ∀ v : V3 ℝ, Plane.signedDistance (Plane.normalize ⟨pose.trans, pose.linear.c1⟩) v =
      dot3 ⟨v.x - pose.trans.x, v.y - pose.trans.y, v.z - pose.trans.z⟩ pose.linear.c1 := by
    intro v
    simp only [Plane.signedDistance, Plane.normalize, hn, V3.dot_eq, V3.real_sub]
  unfold Shell.isCandidate
  simp only [Bool.not_true, Bool.false_eq_true, if_false, hsd, real_sub, Bool.and_eq_true,
    decide_eq_true_eq, Scalar.sign_real, sub_pos, sub_neg]
  obtain ⟨⟨v0, v1, v2⟩, -, -, -, -⟩ := t
  simp only
  generalize hd0 : dot3 ⟨v0.x - pose.trans.x, v0.y - pose.trans.y, v0.z - pose.trans.z⟩ pose.linear.c1 = d0
  generalize hd1 : dot3 ⟨v1.x - pose.trans.x, v1.y - pose.trans.y, v1.z - pose.trans.z⟩ pose.linear.c1 = d1
  generalize hd2 : dot3 ⟨v2.x - pose.trans.x, v2.y - pose.trans.y, v2.z - pose.trans.z⟩ pose.linear.c1 = d2
  have key : MeetsRibPlane pose y ⟨v0, v1, v2⟩ ↔
      ∃ a b c : ℝ, 0 ≤ a ∧ 0 ≤ b ∧ 0 ≤ c ∧ a + b + c = 1 ∧ a * d0 + b * d1 + c * d2 = y := by
    constructor
    · rintro ⟨p, ⟨a, b, c, ha, hb, hc, h1, rfl⟩, h⟩
      refine ⟨a, b, c, ha, hb, hc, h1, ?_⟩
      rw [← h, ← hd0, ← hd1, ← hd2]
      simp only [dot3]
      linear_combination (-(pose.trans.x * pose.linear.c1.x) - pose.trans.y * pose.linear.c1.y -
        pose.trans.z * pose.linear.c1.z) * h1
    · rintro ⟨a, b, c, ha, hb, hc, h1, h⟩
      refine ⟨_, ⟨a, b, c, ha, hb, hc, h1, rfl⟩, ?_⟩
      rw [← h, ← hd0, ← hd1, ← hd2]
      simp only [dot3]
      linear_combination (pose.trans.x * pose.linear.c1.x + pose.trans.y * pose.linear.c1.y +
        pose.trans.z * pose.linear.c1.z) * h1
  rw [key]
  -- mixing two values on different sides
  have mix : ∀ u v : ℝ, u ≤ y → y ≤ v → ∃ s r : ℝ, 0 ≤ s ∧ 0 ≤ r ∧ s + r = 1 ∧ s * u + r * v = y := by
    intro u v hu hv
    rcases eq_or_lt_of_le (hu.trans hv) with h | h
    · exact ⟨1, 0, by norm_num, by norm_num, by norm_num, by linarith⟩
    · refine ⟨(v - y) / (v - u), (y - u) / (v - u), div_nonneg (by linarith) (by linarith),
        div_nonneg (by linarith) (by linarith), ?_, ?_⟩
      · field_simp [(sub_pos.2 h).ne']; ring
      · field_simp [(sub_pos.2 h).ne']; ring
  constructor
  · rintro ⟨h1, h2⟩
    have hlo : d0 ≤ y ∨ d1 ≤ y ∨ d2 ≤ y := by
      by_contra hc
      simp only [not_or, not_le] at hc
      simp [hc.1, hc.2.1, hc.2.2] at h2
    have hhi : y ≤ d0 ∨ y ≤ d1 ∨ y ≤ d2 := by
      by_contra hc
      simp only [not_or, not_le] at hc
      simp [hc.1, hc.2.1, hc.2.2, hc.1.le.not_gt, hc.2.1.le.not_gt, hc.2.2.le.not_gt] at h1
    rcases hlo with l | l | l <;> rcases hhi with u | u | u
    · exact ⟨1, 0, 0, by norm_num, by norm_num, by norm_num, by norm_num, by linarith⟩
    · obtain ⟨s, r, hs, hr, e1, e2⟩ := mix _ _ l u
      exact ⟨s, r, 0, hs, hr, le_rfl, by linarith, by linarith⟩
    · obtain ⟨s, r, hs, hr, e1, e2⟩ := mix _ _ l u
      exact ⟨s, 0, r, hs, le_rfl, hr, by linarith, by linarith⟩
    · obtain ⟨s, r, hs, hr, e1, e2⟩ := mix _ _ l u
      exact ⟨r, s, 0, hr, hs, le_rfl, by linarith, by linarith⟩
    · exact ⟨0, 1, 0, by norm_num, by norm_num, by norm_num, by norm_num, by linarith⟩
    · obtain ⟨s, r, hs, hr, e1, e2⟩ := mix _ _ l u
      exact ⟨0, s, r, le_rfl, hs, hr, by linarith, by linarith⟩
    · obtain ⟨s, r, hs, hr, e1, e2⟩ := mix _ _ l u
      exact ⟨r, 0, s, hr, le_rfl, hs, by linarith, by linarith⟩
    · obtain ⟨s, r, hs, hr, e1, e2⟩ := mix _ _ l u
      exact ⟨0, r, s, le_rfl, hr, hs, by linarith, by linarith⟩
    · exact ⟨0, 0, 1, by norm_num, by norm_num, by norm_num, by norm_num, by linarith⟩
  · rintro ⟨a, b, c, ha, hb, hc, h1, h⟩
    by_contra hcon
    -- all three strictly on one side
    have hside : (y < d0 ∧ y < d1 ∧ y < d2) ∨ (d0 < y ∧ d1 < y ∧ d2 < y) := by
      by_contra hns
      apply hcon
      rw [not_or] at hns
      have b0 : ∀ x : ℝ, (-1 : Int) ≤ (if y < x then 1 else if x < y then -1 else 0) ∧
          (if y < x then (1 : Int) else if x < y then -1 else 0) ≤ 1 := by
        intro x; split_ifs <;> omega
      have b1 : ∀ x : ℝ, ¬ y < x → (if y < x then (1 : Int) else if x < y then -1 else 0) ≤ 0 := by
        intro x hx; rw [if_neg hx]; split_ifs <;> omega
      have b2 : ∀ x : ℝ, ¬ x < y → (0 : Int) ≤ (if y < x then 1 else if x < y then -1 else 0) := by
        intro x hx; rw [if_neg hx]; split_ifs <;> omega
      have := b0 d0; have := b0 d1; have := b0 d2
      constructor
      · have hx : ¬ d0 < y ∨ ¬ d1 < y ∨ ¬ d2 < y := by tauto
        rcases hx with hx | hx | hx <;> have := b2 _ hx <;> omega
      · have hx : ¬ y < d0 ∨ ¬ y < d1 ∨ ¬ y < d2 := by tauto
        rcases hx with hx | hx | hx <;> have := b1 _ hx <;> omega
    have hab : 0 < a ∨ 0 < b ∨ 0 < c := by
      by_contra hn
      simp only [not_or, not_lt] at hn
      linarith
    rcases hside with ⟨s0, s1, s2⟩ | ⟨s0, s1, s2⟩
    · have k0 := mul_le_mul_of_nonneg_left s0.le ha
      have k1 := mul_le_mul_of_nonneg_left s1.le hb
      have k2 := mul_le_mul_of_nonneg_left s2.le hc
      have e : a * y + b * y + c * y = y := by rw [← add_mul, ← add_mul, h1, one_mul]
      rcases hab with hp | hp | hp
      · have := mul_lt_mul_of_pos_left s0 hp; linarith
      · have := mul_lt_mul_of_pos_left s1 hp; linarith
      · have := mul_lt_mul_of_pos_left s2 hp; linarith
    · have k0 := mul_le_mul_of_nonneg_left s0.le ha
      have k1 := mul_le_mul_of_nonneg_left s1.le hb
      have k2 := mul_le_mul_of_nonneg_left s2.le hc
      have e : a * y + b * y + c * y = y := by rw [← add_mul, ← add_mul, h1, one_mul]
      rcases hab with hp | hp | hp
      · have := mul_lt_mul_of_pos_left s0 hp; linarith
      · have := mul_lt_mul_of_pos_left s1 hp; linarith
      · have := mul_lt_mul_of_pos_left s2 hp; linarith

/-- **C18.**  After a setup on a mesh (returning or throwing) whose box query found the triangles
`loc`, the candidate list of every rib consists of local triangles in their order; with refinement
(method "geometric" and more than three local triangles) a local triangle is listed exactly when it
has a point on the plane of the rib, vertices and edges included; without refinement all of them
are listed. -/
theorem C18_candidates_exact (pol : Policy) (s s' : Shell ℝ) (h : s.Reachable pol) (ground : Mesh ℝ)
    (pose : Affine ℝ) (hp : IsRigid pose) (method : String) (loc : List (TriangleGround ℝ))
    (hloc : ground.intersection (s.transform pose).updateBBox.bbox = .ok loc) (hne : loc ≠ [])
    (hs : (∃ b, s.setupMesh pol ground pose method = .ok s' b) ∨
      ∃ e, s.setupMesh pol ground pose method = .throw s' e)
    (i : Nat) (rib : Rib ℝ) (hrib : s'.ribs[i]? = some rib) :
    ∃ c, s'.cands[i]? = some c ∧ c.Sublist loc ∧
      (method = "geometric" ∧ 3 < loc.length →
        ∀ t ∈ loc, t ∈ c ↔ MeetsRibPlane pose rib.center.y t.tri) ∧
      (¬ (method = "geometric" ∧ 3 < loc.length) → c = loc) := by
  rw [Shell.setupMesh_some h.inv.cands hloc hne] at hs
  have hrel : s'.ribs = s.ribs ∧ s'.cands = s.ribs.map (Shell.ribCandidates pose method loc) ++
      s.cands.drop s.ribs.length := by
    rcases hs with ⟨b, hs⟩ | ⟨e, hs⟩ <;> unfold Shell.withOut at hs <;> split at hs <;> cases hs <;>
      exact ⟨rfl, rfl⟩
  rw [hrel.1] at hrib
  have hi : i < s.ribs.length := (List.getElem?_eq_some_iff.1 hrib).1
  refine ⟨Shell.ribCandidates pose method loc rib, ?_, List.filter_sublist, ?_, ?_⟩
  · rw [hrel.2, List.getElem?_append_left (by rw [List.length_map]; exact hi), List.getElem?_map, hrib]
    rfl
  · rintro ⟨hm, hl⟩ t ht
    have hr : Shell.refines method loc = true := by simp [Shell.refines, hm, hl]
    rw [Shell.ribCandidates, List.mem_filter, hr, Shell.isCandidate_iff hp]
    exact ⟨fun h => h.2, fun h => ⟨ht, h⟩⟩
  · intro hn
    have hr : Shell.refines method loc = false := by
      simp only [Shell.refines, Bool.and_eq_false_iff, decide_eq_false_iff_not]
      by_cases hm : method = "geometric"
      · exact .inr fun h => hn ⟨hm, h⟩
      · exact .inl hm
    rw [Shell.ribCandidates, hr, List.filter_eq_self]
    intro t _
    rfl

/-! ## C30: the record of a rib without contact -/

/-- The record of rib `r` when it touches nothing: all quantities zero, the contact point at the
lowest point of the rib in its own frame, the normal along the z axis of the pose. -/
structure Spec.IsNoContact (r : Rib α) (pose : Affine α) (o : Output α) : Prop where
  friction : o.friction = zero
  depth : o.depth = zero
  area : o.area = zero
  volume : o.volume = zero
  point : o.point = V3.add pose.trans
    (M3.mulVec pose.linear (V3.sub r.center (V3.smul r.radius ⟨zero, zero, one⟩)))
  normal : o.normal = M3.mulVec pose.linear ⟨zero, zero, one⟩

theorem Rib.noContact_is (r : Rib α) (pose : Affine α) : IsNoContact r pose (r.noContact pose) :=
  ⟨rfl, rfl, rfl, rfl, rfl, rfl⟩

theorem Rib.envelopSampling_false {r : Rib α} {f : Line α → Option (V3 α × α)} {pose : Affine α}
    {o : Output α} (h : r.envelopSampling f pose = (false, o)) : o = r.noContact pose := by
  unfold Rib.envelopSampling at h
  split at h
  · dsimp only at h
    split at h
    · cases h
    · cases h; rfl
  · cases h; rfl

theorem Rib.geomFinish_false {r : Rib α} {acc : Rib.Acc α} {pose : Affine α}
    {o : Output α} (h : r.geomFinish pose acc = (false, o)) : o = r.noContact pose := by
  unfold Rib.geomFinish at h
  split at h
  · cases h
  · cases h; rfl

theorem Rib.envelopMesh_false {r : Rib α} {ts : List (TriangleGround α)} {pose : Affine α}
    {method : String} {o : Output α} (h : r.envelopMesh ts pose method = .ok (false, o)) :
    o = r.noContact pose := by
  unfold Rib.envelopMesh at h
  split at h
  · unfold Rib.envelopGeometricMesh at h
    rw [Res.bind_eq_ok] at h
    obtain ⟨acc, -, h⟩ := h
    exact Rib.geomFinish_false (Res.ok.inj h)
  · split at h
    · exact Rib.envelopSampling_false (Res.ok.inj h)
    · cases h

theorem Rib.envelopFlat_false {r : Rib α} {g : Flat α} {pose : Affine α}
    {method : String} {o : Output α} (h : r.envelopFlat g pose method = .ok (false, o)) :
    o = r.noContact pose := by
  unfold Rib.envelopFlat at h
  split at h
  · have h := Res.ok.inj h
    unfold Rib.envelopGeometricFlat at h
    split at h
    · cases h; rfl
    · split at h
      · cases h
      · cases h; rfl
  · split at h
    · exact Rib.envelopSampling_false (Res.ok.inj h)
    · cases h

/-- **C30.**  For every scalar type, both grounds and both methods: when the evaluation of a rib
returns `false`, the record it writes is the no-contact record. -/
theorem C30_no_contact_record (r : Rib α) (pose : Affine α) (method : String) (o : Output α) :
    (∀ ts, r.envelopMesh ts pose method = .ok (false, o) → IsNoContact r pose o) ∧
    (∀ g, r.envelopFlat g pose method = .ok (false, o) → IsNoContact r pose o) :=
  ⟨fun _ h => Rib.envelopMesh_false h ▸ r.noContact_is pose,
   fun _ h => Rib.envelopFlat_false h ▸ r.noContact_is pose⟩

/-- C30 on exact reals: the contact point is the image under the pose of the point one radius below
the rib centre. -/
theorem C30_no_contact_point (r : Rib ℝ) (pose : Affine ℝ) (o : Output ℝ) (h : IsNoContact r pose o) :
    o.point = pose.apply ⟨r.center.x, r.center.y, r.center.z - r.radius⟩ ∧
    o.normal = pose.linear.c2 ∧ o.friction = 0 ∧ o.depth = 0 ∧ o.area = 0 ∧ o.volume = 0 := by
  refine ⟨?_, ?_, by simpa using h.friction, by simpa using h.depth, by simpa using h.area,
    by simpa using h.volume⟩
  · rw [h.point]
    ext <;> v3 <;> ring
  · rw [h.normal]
    ext <;> v3 <;> ring

/-- Evaluations that return `false` exist: no triangles. -/
example (r : Rib ℝ) (pose : Affine ℝ) :
    r.envelopMesh [] pose "geometric" = .ok (false, r.noContact pose) ∧
    r.envelopMesh [] pose "sampling" = .ok (false, r.noContact pose) := by
  constructor
  · simp [Rib.envelopMesh, Rib.envelopGeometricMesh, Rib.geomLoop, Rib.geomFinish, Rib.Acc.init]
  · simp [Rib.envelopMesh, Rib.envelopSamplingMesh, Rib.envelopSampling, Rib.samplingLineMesh,
      Rib.samplingHits]

/-! ## C38: the returned flag -/

theorem foldl_or_iff {β : Type} (f : β → Bool) (l : List β) (b : Bool) :
    l.foldl (fun b c => f c || b) b = true ↔ b = true ∨ ∃ c ∈ l, f c = true := by
  induction l generalizing b with
  | nil => simp
  | cons x xs ih =>
    rw [List.foldl_cons, ih]
    simp only [Bool.or_eq_true, List.mem_cons, exists_eq_or_imp]
    tauto

/-- Rib `i` of the shell has the evaluation result `(flag, record)`. -/
def Spec.RibResult (pol : Policy) (s' : Shell α) (eval : Rib α → Res (Bool × Output α)) (i : Nat)
    (flag : Bool) (o : Output α) : Prop :=
  ∃ rib, s'.ribs[i]? = some rib ∧ eval rib = .ok (flag, o) ∧ s'.out.read pol i = .ok o

omit [Scalar α] in
/-- Every rib has been evaluated and its record stored. -/
theorem Shell.withOut_ribLoop_ok {pol : Policy} {comb : Bool → Bool → Bool} {s s' : Shell α}
    {eval : Rib α → Res (Bool × Output α)} {b : Bool}
    (h : withOut s (ribLoop pol comb (fun _ r => eval r) s.ribs 0 s.out false) = .ok s' b) :
    ∃ res : List (Bool × Output α), res.length = s.size ∧ s'.ribs = s.ribs ∧
      (∀ i c, res[i]? = some c → RibResult pol s' eval i c.1 c.2) ∧
      b = res.foldl (fun b c => comb c.1 b) false := by
  unfold withOut at h
  split at h
  · rename_i out' b' hl
    obtain ⟨res, h1, h2, h3, -, h5, h6, h7⟩ := ribLoop_ok hl
    cases h
    refine ⟨res, h1, rfl, fun i c hc => ?_, h7⟩
    have hi : i < s.ribs.length := by
      rw [← h1]; exact (List.getElem?_eq_some_iff.1 hc).1
    have hr : s.ribs[i]? = some s.ribs[i] := List.getElem?_eq_getElem hi
    have ha := h2 i _ hr
    obtain ⟨e1, e2⟩ := h3 i _ c hr hc
    rw [Nat.zero_add] at e2 ha
    refine ⟨_, hr, e1, ?_⟩
    show out'.read pol i = .ok c.2
    have hacc : out'.accessible pol i = true := by
      rw [← ha]; simp [RecVec.accessible, h5, h6]
    rw [RecVec.read, if_pos hacc, e2]
  · cases h
  · cases h

/-- **C38 for meshes.**  For every scalar type: when a setup on a mesh returns, every rib has been
evaluated on its candidates and its record stored, and the returned flag is `true` exactly when the
evaluation of some rib reported contact (without local triangles: never). -/
theorem C38_mesh_flag (pol : Policy) (s s' : Shell α) (h : s.Reachable pol) (ground : Mesh α)
    (pose : Affine α) (method : String) (loc : List (TriangleGround α)) (b : Bool)
    (hloc : ground.intersection (s.transform pose).updateBBox.bbox = .ok loc)
    (hs : s.setupMesh pol ground pose method = .ok s' b) :
    ∃ (flags : Nat → Bool) (recs : Nat → Output α),
      (∀ i < s.size, RibResult pol s' (fun r => if loc = [] then .ok (false, r.noContact pose) else
        r.envelopMesh (Shell.ribCandidates pose method loc r) pose method) i (flags i) (recs i)) ∧
      (b = true ↔ ∃ i < s.size, flags i = true) := by
  by_cases hne : loc = []
  · subst hne
    rw [Shell.setupMesh_none hloc] at hs
    obtain ⟨res, h1, h2, h3, h4⟩ := Shell.withOut_ribLoop_ok
      (eval := fun r => .ok (false, r.noContact pose)) hs
    have h1 : res.length = s.size := h1
    refine ⟨fun i => (res[i]?.getD (false, Output.default)).1,
      fun i => (res[i]?.getD (false, Output.default)).2, fun i hi => ?_, ?_⟩
    · have hl : i < res.length := by rw [h1]; exact hi
      have hi' : res[i]? = some res[i] := List.getElem?_eq_getElem hl
      simp only [hi', Option.getD_some]
      simpa using h3 i _ hi'
    · have hb : b = false := by
        rw [h4]
        have : ∀ (l : List (Bool × Output α)) (b0 : Bool), b0 = false →
            l.foldl (fun _ _ => false) b0 = false := by
          intro l
          induction l with
          | nil => intro b0 h; exact h
          | cons x xs ih => intro b0 _; exact ih false rfl
        exact this res false rfl
      rw [hb]
      simp only [Bool.false_eq_true, false_iff, not_exists, not_and]
      intro i hi
      have hl : i < res.length := by rw [h1]; exact hi
      have hi' : res[i]? = some res[i] := List.getElem?_eq_getElem hl
      obtain ⟨rib, -, e, -⟩ := h3 i _ hi'
      simp only [hi', Option.getD_some]
      have := congrArg Prod.fst (Res.ok.inj e)
      rw [← this]
      simp
  · rw [Shell.setupMesh_some h.inv.cands hloc hne] at hs
    obtain ⟨res, h1, h2, h3, h4⟩ := Shell.withOut_ribLoop_ok
      (s := { (s.transform pose).updateBBox with
        cands := s.ribs.map (Shell.ribCandidates pose method loc) ++ s.cands.drop s.ribs.length })
      (eval := fun r => r.envelopMesh (Shell.ribCandidates pose method loc r) pose method) hs
    have h1 : res.length = s.size := h1
    refine ⟨fun i => (res[i]?.getD (false, Output.default)).1,
      fun i => (res[i]?.getD (false, Output.default)).2, fun i hi => ?_, ?_⟩
    · have hl : i < res.length := by rw [h1]; exact hi
      have hi' : res[i]? = some res[i] := List.getElem?_eq_getElem hl
      simp only [hi', Option.getD_some, if_neg hne]
      exact h3 i _ hi'
    · rw [h4]
      rw [foldl_or_iff (fun c : Bool × Output α => c.1)]
      simp only [Bool.false_eq_true, false_or]
      constructor
      · rintro ⟨c, hc, ht⟩
        obtain ⟨i, hi, rfl⟩ := List.getElem_of_mem hc
        exact ⟨i, by rw [← h1]; exact hi, by simp [List.getElem?_eq_getElem hi, ht]⟩
      · rintro ⟨i, hi, ht⟩
        have hi' : i < res.length := by rw [h1]; exact hi
        refine ⟨res[i], List.getElem_mem hi', ?_⟩
        simpa [List.getElem?_eq_getElem hi'] using ht

/-- A record that shows contact. -/
def Spec.ShowsContact (o : Output ℝ) : Prop := o.area ≠ 0 ∨ o.volume ≠ 0 ∨ o.depth ≠ 0

theorem Rib.noContact_not_shows (r : Rib ℝ) (pose : Affine ℝ) : ¬ ShowsContact (r.noContact pose) := by
  simp [ShowsContact, Rib.noContact]

theorem Rib.envelopSampling_true {r : Rib α} {f : Line α → Option (V3 α × α)} {pose : Affine α}
    {o : Output α} (h : r.envelopSampling f pose = (true, o)) : (zero <. o.depth) = true := by
  unfold Rib.envelopSampling at h
  split at h
  · dsimp only at h
    split at h
    · cases h; assumption
    · cases h
  · cases h

theorem Rib.envelopMesh_true {r : Rib ℝ} {ts : List (TriangleGround ℝ)} {pose : Affine ℝ}
    {method : String} {o : Output ℝ} (h : r.envelopMesh ts pose method = .ok (true, o)) :
    ShowsContact o := by
  unfold Rib.envelopMesh at h
  split at h
  · unfold Rib.envelopGeometricMesh at h
    rw [Res.bind_eq_ok] at h
    obtain ⟨acc, -, h⟩ := h
    have h := Res.ok.inj h
    unfold Rib.geomFinish at h
    split at h
    · rename_i hc
      simp only [real_lt, Bool.and_eq_true, Bool.or_eq_true, decide_eq_true_eq] at hc
      cases h
      have := real_eps_pos
      rcases hc.2 with hc | hc
      · exact .inl (by dsimp only; linarith)
      · exact .inr (.inl (by dsimp only; linarith))
    · cases h
  · split at h
    · have := Rib.envelopSampling_true (Res.ok.inj h)
      simp only [real_lt, real_zero, decide_eq_true_eq] at this
      exact .inr (.inr this.ne')
    · cases h

/-- **C38 for meshes, in terms of the records.**  On exact reals: the flag returned by a setup on a
mesh is `true` exactly when the record of some rib shows contact. -/
theorem C38_mesh_flag_records (pol : Policy) (s s' : Shell ℝ) (h : s.Reachable pol) (ground : Mesh ℝ)
    (pose : Affine ℝ) (method : String) (b : Bool)
    (hs : s.setupMesh pol ground pose method = .ok s' b) :
    b = true ↔ ∃ i < s'.size, ∃ o, s'.out.read pol i = .ok o ∧ ShowsContact o := by
  have hsize : s'.size = s.size := by
    rw [Shell.size, (Shell.setupMesh_rel (.inl ⟨b, hs⟩)).ribs]; rfl
  obtain ⟨loc, hloc⟩ : ∃ loc, ground.intersection (s.transform pose).updateBBox.bbox = .ok loc := by
    cases hi : ground.intersection (s.transform pose).updateBBox.bbox with
    | ok loc => exact ⟨loc, rfl⟩
    | throw m => simp [Shell.setupMesh, hi] at hs
    | ub w => simp [Shell.setupMesh, hi] at hs
  obtain ⟨flags, recs, h1, h2⟩ := C38_mesh_flag pol s s' h ground pose method loc b hloc hs
  have key : ∀ i < s.size, (flags i = true ↔ ShowsContact (recs i)) := by
    intro i hi
    obtain ⟨rib, -, e, -⟩ := h1 i hi
    split at e
    · have e := Res.ok.inj e
      rw [Prod.mk.injEq] at e
      rw [← e.1, ← e.2]
      simp [Rib.noContact_not_shows]
    · cases hf : flags i with
      | true => rw [hf] at e; simp [Rib.envelopMesh_true e]
      | false =>
        rw [hf] at e
        rw [Rib.envelopMesh_false e]
        simp [Rib.noContact_not_shows]
  rw [h2, hsize]
  constructor
  · rintro ⟨i, hi, hf⟩
    obtain ⟨rib, -, -, e⟩ := h1 i hi
    exact ⟨i, hi, _, e, (key i hi).1 hf⟩
  · rintro ⟨i, hi, o, ho, hc⟩
    obtain ⟨rib, -, -, e⟩ := h1 i hi
    rw [e] at ho
    cases ho
    exact ⟨i, hi, (key i hi).2 hc⟩

/-- **C38 for flat grounds (partial).**  For every scalar type: when a setup on a flat ground returns,
every rib has been evaluated and its record stored, but the returned flag is that of the *last* rib.
Missing: contact of the other ribs (`C38_flat_flag_refuted`). -/
theorem C38_flat_flag_partial (pol : Policy) (s s' : Shell α) (ground : Flat α) (pose : Affine α)
    (method : String) (b : Bool) (hs : s.setupFlat pol ground pose method = .ok s' b) :
    ∃ (flags : Nat → Bool) (recs : Nat → Output α),
      (∀ i < s.size, RibResult pol s' (fun r => r.envelopFlat ground pose method) i (flags i)
        (recs i)) ∧
      b = (decide (1 ≤ s.size) && flags (s.size - 1)) ∧
      (b = true → ∃ i < s.size, flags i = true) := by
  rw [Shell.setupFlat_eq] at hs
  obtain ⟨res, h1, h2, h3, h4⟩ := Shell.withOut_ribLoop_ok
    (eval := fun r => r.envelopFlat ground pose method) hs
  have h1 : res.length = s.size := h1
  have hb : b = (decide (1 ≤ s.size) && (res[s.size - 1]?.getD (false, Output.default)).1) := by
    rw [h4, ← h1]
    clear h1 h2 h3 h4 hs
    induction res using List.reverseRecOn with
    | nil => rfl
    | append_singleton l c _ => simp
  refine ⟨fun i => (res[i]?.getD (false, Output.default)).1,
    fun i => (res[i]?.getD (false, Output.default)).2, fun i hi => ?_, hb, fun ht => ?_⟩
  · have hl : i < res.length := by rw [h1]; exact hi
    have hi' : res[i]? = some res[i] := List.getElem?_eq_getElem hl
    simp only [hi', Option.getD_some]
    exact h3 i _ hi'
  · rw [hb, Bool.and_eq_true, decide_eq_true_eq] at ht
    exact ⟨s.size - 1, by omega, ht.2⟩

/-! ## C39: unknown methods -/

/-- **C39 (partial).**  For every scalar type, a rib refuses a method that is neither "geometric" nor
"sampling"; a setup on a flat ground refuses it as soon as there is a rib (whose record exists); a
setup on a mesh refuses it if in addition there is a local triangle.  A refusing setup has changed
neither the ribs nor the shape, but has already moved the shell to the new pose.  Missing: meshes
without local triangles (`C39_no_triangles_refuted`). -/
theorem C39_unknown_method_partial (method : String) (h1 : method ≠ "geometric")
    (h2 : method ≠ "sampling") (pose : Affine α) :
    (∀ (r : Rib α) ts, (r.envelopMesh ts pose method).isThrow = true) ∧
    (∀ (r : Rib α) g, (r.envelopFlat g pose method).isThrow = true) ∧
    (∀ (s : Shell α), s.Reachable .raw → 1 ≤ s.size → ∀ g, ∃ s' e,
      s.setupFlat .raw g pose method = .throw s' e ∧ s'.ribs = s.ribs ∧ s'.shape = s.shape ∧
        s'.pose = pose) ∧
    (∀ (s : Shell α), s.Reachable .raw → 1 ≤ s.size → ∀ (g : Mesh α) loc,
      g.intersection (s.transform pose).updateBBox.bbox = .ok loc → loc ≠ [] → ∃ s' e,
      s.setupMesh .raw g pose method = .throw s' e ∧ s'.ribs = s.ribs ∧ s'.shape = s.shape ∧
        s'.pose = pose) := by
  have m : ∀ (r : Rib α) ts, ∃ e, r.envelopMesh ts pose method = .throw e :=
    fun r ts => ⟨_, by rw [Rib.envelopMesh, if_neg h1, if_neg h2]⟩
  have f : ∀ (r : Rib α) g, ∃ e, r.envelopFlat g pose method = .throw e :=
    fun r ts => ⟨_, by rw [Rib.envelopFlat, if_neg h1, if_neg h2]⟩
  have loop : ∀ (s sc : Shell α) (comb : Bool → Bool → Bool) (eval : Rib α → Res (Bool × Output α)),
      s.Reachable .raw → 1 ≤ s.size → (∀ r, ∃ e, eval r = .throw e) →
      ∃ out e, Shell.withOut sc (Shell.ribLoop .raw comb (fun _ r => eval r) s.ribs 0 s.out false) =
        .throw { sc with out := out } e := by
    intro s sc comb eval hr hn he
    have hn : 1 ≤ s.ribs.length := hn
    have ha := Shell.accessible_raw hr.inv 0
    cases hrib : s.ribs with
    | nil => rw [hrib] at hn; simp at hn
    | cons r rs =>
      obtain ⟨e, he⟩ := he r
      exact ⟨s.out, e, by simp [Shell.ribLoop, ha, he, Shell.withOut]⟩
  refine ⟨fun r ts => ?_, fun r g => ?_, fun s hr hn g => ?_, fun s hr hn g loc hloc hne => ?_⟩
  · obtain ⟨e, h⟩ := m r ts; rw [h]; rfl
  · obtain ⟨e, h⟩ := f r g; rw [h]; rfl
  · obtain ⟨out, e, h⟩ := loop s (s.transform pose).updateBBox (fun c _ => c)
      (fun r => r.envelopFlat g pose method) hr hn (fun r => f r g)
    exact ⟨_, e, h, rfl, rfl, rfl⟩
  · have hs := Shell.setupMesh_some (pol := .raw) (method := method) hr.inv.cands hloc hne
    obtain ⟨out, e, h⟩ := loop s _ (fun c b => c || b)
      (fun r => r.envelopMesh (Shell.ribCandidates pose method loc r) pose method) hr hn
      (fun r => m r _)
    rw [h] at hs
    exact ⟨_, e, hs, rfl, rfl, rfl⟩

/-- **C39 is false.**  When no triangle of the mesh is near, setup on a mesh accepts every method
string: it returns `false` and the no-contact record for every rib. -/
theorem C39_no_triangles_refuted (s : Shell α) (h : s.Reachable .raw) (hn : s.size ≤ 200)
    (ground : Mesh α) (pose : Affine α)
    (hloc : ground.intersection (s.transform pose).updateBBox.bbox = .ok []) (method : String) :
    ∃ s', s.setupMesh .raw ground pose method = .ok s' false ∧
      ∀ i rib, s.ribs[i]? = some rib → s'.out.read .raw i = .ok (rib.noContact pose) := by
  have hacc : ∀ j < s.ribs.length, s.out.accessible .raw (0 + j) = true := fun i hi => by
    rw [Shell.accessible_raw h.inv]
    have : s.ribs.length ≤ 200 := hn
    exact decide_eq_true (by omega)
  obtain ⟨out', b', hl⟩ := Shell.ribLoop_total (comb := fun _ _ => false) (b := false)
    (f := fun _ r => .ok (false, r.noContact pose)) hacc (fun j r _ => ⟨_, rfl⟩)
  have hset := Shell.setupMesh_none (pol := .raw) (method := method) hloc
  rw [hl] at hset
  have hset' : s.setupMesh .raw ground pose method =
    .ok { (s.transform pose).updateBBox with out := out' } b' := hset
  obtain ⟨flags, recs, h1, h2⟩ := C38_mesh_flag .raw s _ h ground pose method [] b' hloc hset'
  have hb : b' = false := by
    cases b' with
    | false => rfl
    | true =>
      obtain ⟨i, hi, hf⟩ := h2.1 rfl
      obtain ⟨rib, -, e, -⟩ := h1 i hi
      simp only [↓reduceIte] at e
      have := congrArg Prod.fst (Res.ok.inj e)
      rw [hf] at this
      cases this
  refine ⟨_, by rw [hset', hb], fun i rib hrib => ?_⟩
  obtain ⟨rib', hr', e, hread⟩ := h1 i (List.getElem?_eq_some_iff.1 hrib).1
  have : some rib = some rib' := by rw [← hrib]; exact hr'
  cases this
  simp only [↓reduceIte] at e
  rw [hread, ← (Prod.mk.inj (Res.ok.inj e)).2]

open Demo in
/-- The one-triangle mesh of the demonstrations has no triangle near a box with `99 ≤ x`. -/
theorem Demo.far_none (q : Box ℝ) (hq : q.min.x ≤ q.max.x ∧ q.min.y ≤ q.max.y ∧ q.min.z ≤ q.max.z)
    (h : 99 ≤ q.min.x) : (Mesh.ofTriangles [tri 0 0]).intersection q = .ok [] := by
  obtain ⟨flag, out, h1, h2⟩ := C17_vector_mesh_partial OrderOn.real [tri 0 0] (by simp)
    (by simp only [List.mem_singleton, forall_eq]; exact ⟨_, _, _, _, _, tri_make 0 0⟩)
    (by
      intro i t ht
      match i, ht with
      | 0, ht => simp at ht; subst ht; rfl
      | n + 1, ht => simp at ht)
    (fun _ _ => allTrue) q ((Box.real_WF q).2 hq) []
  have hno : (tri 0 0).bbox.intersects q = false := by
    rw [Bool.eq_false_iff, Ne, Box.intersects_iff, tri_bbox]
    simp only [V3.Le, real_le, decide_eq_true_eq]
    intro hc
    have := hc.1.1
    have := hc.2.1
    simp at *
    linarith
  simp only [List.filter_cons, hno, List.filter_nil] at h2
  have h2 : out = [] := List.Perm.eq_nil h2
  subst h2
  cases hi : (Mesh.ofTriangles [tri 0 0]).intersection q with
  | ok o =>
    simp only [Mesh.query, hi, Res.bind_ok, Res.pure_eq, Res.ok.injEq, Prod.mk.injEq] at h1
    rw [h1.2]
  | throw e => simp [Mesh.query, hi] at h1
  | ub w => simp [Mesh.query, hi] at h1

/-- The hypotheses of `C39_no_triangles_refuted` (and of C38 and C40) are met: a shell with 25 ribs, far
from a mesh of one triangle, accepts the method "foo". -/
example : ∃ (s s' : Shell ℝ) (pose : Affine ℝ), s.Reachable .raw ∧ s.size = 25 ∧ IsRigid pose ∧
    s.setupMesh .raw (Mesh.ofTriangles [Demo.tri 0 0]) pose "foo" = .ok s' false := by
  obtain ⟨s, h1, h2, -, h3, -⟩ := C04_construct (fun _ => Output.default) 25 (by norm_num) (1/2) 4
    (1/4) 2 (1/8) ⟨by norm_num, by norm_num, by norm_num, by norm_num, by norm_num, by norm_num⟩
  have hr : s.Reachable .raw := .make h1
  have hloc : (Mesh.ofTriangles [Demo.tri 0 0]).intersection
      (s.transform ⟨M3.id, ⟨100, 0, 0⟩⟩).updateBBox.bbox = .ok [] := by
    have hb : ¬ (1 : ℝ) / 2 < - (1 / 2) := by norm_num
    apply Demo.far_none <;>
    simp [Shell.transform, Shell.updateBBox, h3, Shape.surfaceMaxRadius, Box.updateMaxMin, Box.order1,
      V3.real_sub, V3.real_add] <;> norm_num
  obtain ⟨s', h, -⟩ := C39_no_triangles_refuted s hr (by rw [h2]; norm_num) _ _ hloc "foo"
  exact ⟨s, s', ⟨M3.id, ⟨100, 0, 0⟩⟩, hr, h2, isRotation_id, h⟩

/-! ## C40: history independence -/

/-- Two outcomes of `setup` show the same: both return with the same flag, the same pose, box and
record of every rib; or both throw the same error; or both have undefined behaviour. -/
def Spec.SameOutcome (n : Nat) : MRes (Shell α) Bool → MRes (Shell α) Bool → Prop
  | .ok s b, .ok s' b' => b = b' ∧ s.pose = s'.pose ∧ s.bbox = s'.bbox ∧ s.shape = s'.shape ∧
      s.ribs = s'.ribs ∧ ∀ i < n, s.out.mem i = s'.out.mem i
  | .throw s e, .throw s' e' => e = e' ∧ s.pose = s'.pose ∧ s.bbox = s'.bbox ∧ s.shape = s'.shape ∧
      s.ribs = s'.ribs
  | .ub _, .ub _ => True
  | _, _ => False

omit [Scalar α] in
theorem Shell.withOut_congr {pol : Policy} {comb : Bool → Bool → Bool} {sc sc' : Shell α}
    {f : Nat → Rib α → Res (Bool × Output α)} {ribs : List (Rib α)} {out out' : RecVec α}
    (hs : out.size = out'.size) (hc : out.cap = out'.cap) (h1 : sc.pose = sc'.pose)
    (h2 : sc.bbox = sc'.bbox) (h3 : sc.shape = sc'.shape) (h4 : sc.ribs = sc'.ribs) :
    SameOutcome ribs.length (withOut sc (ribLoop pol comb f ribs 0 out false))
      (withOut sc' (ribLoop pol comb f ribs 0 out' false)) := by
  rcases ribLoop_congr (pol := pol) (comb := comb) (f := f) (g := f) (ribs := ribs) (i := 0)
    (b := false) hs hc (fun _ _ _ => rfl) with ⟨o, o', c, e1, e2, e3⟩ | ⟨o, o', e, e1, e2⟩ | ⟨w, e1, e2⟩
  · rw [e1, e2]
    exact ⟨rfl, h1, h2, h3, h4, fun i hi => e3 i (Nat.zero_le i) (by omega)⟩
  · rw [e1, e2]
    exact ⟨rfl, h1, h2, h3, h4⟩
  · rw [e1, e2]
    trivial

/-- What pose operations, box updates and setups leave alone. -/
theorem Shell.Evolves.keeps {pol : Policy} {s0 s : Shell α} (h : Shell.Evolves pol s0 s) :
    (s0.Reachable pol → s.Reachable pol) ∧ s.shape = s0.shape ∧ s.ribs = s0.ribs := by
  induction h with
  | refl => exact ⟨id, rfl, rfl⟩
  | translate v _ ih => exact ⟨fun h => (ih.1 h).translate v, ih.2⟩
  | rotate a v _ ih => exact ⟨fun h => (ih.1 h).rotate a v, ih.2⟩
  | transform p _ ih => exact ⟨fun h => (ih.1 h).transform p, ih.2⟩
  | updateBBox _ ih => exact ⟨fun h => (ih.1 h).updateBBox, ih.2⟩
  | setupMesh _ h ih =>
    have r := Shell.setupMesh_rel (h.imp (fun h => ⟨_, h⟩) id)
    exact ⟨fun hr => (ih.1 hr).setupMesh h, r.shape.trans ih.2.1, r.ribs.trans ih.2.2⟩
  | setupFlat _ h ih =>
    have r := Shell.setupFlat_rel (h.imp (fun h => ⟨_, h⟩) id)
    exact ⟨fun hr => (ih.1 hr).setupFlat h, r.shape.trans ih.2.1, r.ribs.trans ih.2.2⟩

/-- The query box only depends on the shape and the pose. -/
theorem Shell.queryBox_congr {s1 s2 : Shell α} (i1 : s1.Inv) (i2 : s2.Inv) (hs : s1.shape = s2.shape)
    (pose : Affine α) : (s1.transform pose).updateBBox.bbox = (s2.transform pose).updateBBox.bbox := by
  simp [Shell.transform, Shell.updateBBox, hs, i1.bbox_id, i2.bbox_id, i1.bbox_pos, i2.bbox_pos]

/-- **C40.**  For every scalar type and both treatments of the record storage: two shells in any
reachable states with the same shape and the same ribs behave the same in `setup`, whatever their
histories, poses and old records.  In particular this holds for two continuations, by pose
operations and setups, of one reachable shell. -/
theorem C40_history_independent (pol : Policy) (s1 s2 : Shell α) (h1 : s1.Reachable pol)
    (h2 : s2.Reachable pol) (hshape : s1.shape = s2.shape) (hribs : s1.ribs = s2.ribs)
    (pose : Affine α) (method : String) :
    (∀ ground, SameOutcome s1.size (s1.setupMesh pol ground pose method)
      (s2.setupMesh pol ground pose method)) ∧
    (∀ ground, SameOutcome s1.size (s1.setupFlat pol ground pose method)
      (s2.setupFlat pol ground pose method)) := by
  have i1 := h1.inv
  have i2 := h2.inv
  have hb := Shell.queryBox_congr i1 i2 hshape pose
  have hsz : s1.out.size = s2.out.size := by rw [i1.out_size, i2.out_size]
  have hcap : s1.out.cap = s2.out.cap := by rw [i1.out_cap, i2.out_cap]
  refine ⟨fun ground => ?_, fun ground => ?_⟩
  · cases hi : ground.intersection (s1.transform pose).updateBBox.bbox with
    | throw m =>
      have hi2 := hi; rw [hb] at hi2
      simp only [Shell.setupMesh, hi, hi2]
      exact ⟨rfl, rfl, hb, hshape, hribs⟩
    | ub w =>
      have hi2 := hi; rw [hb] at hi2
      simp only [Shell.setupMesh, hi, hi2]
      trivial
    | ok loc =>
      have hi2 := hi; rw [hb] at hi2
      by_cases hl : loc = []
      · subst hl
        rw [Shell.setupMesh_none hi, Shell.setupMesh_none hi2, ← hribs]
        exact Shell.withOut_congr hsz hcap rfl hb hshape hribs
      · rw [Shell.setupMesh_some i1.cands hi hl, Shell.setupMesh_some i2.cands hi2 hl, ← hribs]
        exact Shell.withOut_congr hsz hcap rfl hb hshape hribs
  · rw [Shell.setupFlat_eq, Shell.setupFlat_eq, ← hribs]
    exact Shell.withOut_congr hsz hcap rfl hb hshape hribs

/-- **C40 for one shell.**  Whatever happened to a shell between construction (or `resize`) and
`setup`, the outcome of `setup` is the same. -/
theorem C40_after_any_history (pol : Policy) (s0 s1 s2 : Shell α) (h0 : s0.Reachable pol)
    (h1 : Shell.Evolves pol s0 s1) (h2 : Shell.Evolves pol s0 s2) (pose : Affine α)
    (method : String) :
    (∀ ground, SameOutcome s0.size (s1.setupMesh pol ground pose method)
      (s2.setupMesh pol ground pose method)) ∧
    (∀ ground, SameOutcome s0.size (s1.setupFlat pol ground pose method)
      (s2.setupFlat pol ground pose method)) := by
  have k1 := h1.keeps
  have k2 := h2.keeps
  have := C40_history_independent pol s1 s2 (k1.1 h0) (k2.1 h0) (by rw [k1.2.1, k2.2.1])
    (by rw [k1.2.2, k2.2.2]) pose method
  rwa [Shell.size, k1.2.2] at this

end Enve
