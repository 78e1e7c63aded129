import Verif.Props.SearchProps
import Verif.Props.GeomMeshProps
import Verif.Props.EditProps
import Verif.Props.OffAxisProps

/-!
# C139: the friction of the ground enters the reported friction only

Two grounds of the same shape with different frictions give contacts that differ in the friction only, and the reported friction is a
linear and monotone function of the frictions of the faces.
-/

namespace Enve
open Scalar Spec

variable {α : Type} [Scalar α]

/-- The face with another friction. -/
def Spec.paint (t : TriangleGround α) (f : α) : TriangleGround α := { t with friction := f }

/-- The faces with the frictions `φ 0, φ 1, …`. -/
def Spec.paintFaces (ts : List (TriangleGround α)) (φ : Nat → α) : List (TriangleGround α) := ts.mapIdx fun j t => paint t (φ j)

/-- The mesh whose faces have the frictions `φ 0, φ 1, …`. -/
def Spec.paintMesh (m : Mesh α) (φ : Nat → α) : Mesh α := { m with triangles := paintFaces m.triangles φ }

/-- The flat ground with another friction. -/
def Spec.paintFlat (g : Flat α) (f : α) : Flat α := { g with friction := f }

/-- Two contact records that differ in the friction only. -/
def Spec.SameButFriction (o o' : Output α) : Prop := o' = { o with friction := o'.friction }

/-- Two tyres in the same pose whose contact records differ in the friction only. -/
structure Spec.SameTyre (s s' : Shell α) : Prop where
  pose : s'.pose = s.pose
  shape : s'.shape = s.shape
  bbox : s'.bbox = s.bbox
  ribs : s'.ribs = s.ribs
  size : s'.out.size = s.out.size
  cap : s'.out.cap = s.out.cap
  records : ∀ k, SameButFriction (s.out.mem k) (s'.out.mem k)

/-- Two outcomes of a setup that differ in the frictions of the records only. -/
def Spec.SameButFrictions (a b : MRes (Shell α) Bool) : Prop :=
  (∃ s s' flag, a = .ok s flag ∧ b = .ok s' flag ∧ SameTyre s s') ∨ (∃ s s' w, a = .throw s w ∧ b = .throw s' w ∧ SameTyre s s') ∨
    ∃ w, a = .ub w ∧ b = .ub w

namespace Paint
variable {ι : Type}

/-- Relations between numbers that the computations on frictions keep. -/
structure Closed (R : (ι → α) → Prop) : Prop where
  zero : R fun _ => Scalar.zero
  add : ∀ f g, R f → R g → R fun i => f i +. g i
  mul : ∀ v f, R f → R fun i => v *. f i
  mulr : ∀ v f, R f → R fun i => f i *. v
  div : ∀ v f, R f → R fun i => f i /. v

/-- The faces with the `i`-th of several frictions each. -/
def faces (L : List (TriangleGround α × (ι → α))) (i : ι) : List (TriangleGround α) := L.map fun p => paint p.1 (p.2 i)

/-- Several evaluations of a rib with the same outcome but for the frictions, which are related by `R`. -/
def Family (R : (ι → α) → Prop) (x : ι → Res (Bool × Output α)) : Prop :=
  (∃ (b : Bool) (o : Output α) (f : ι → α), R f ∧ ∀ i, x i = .ok (b, { o with friction := f i })) ∨ (∃ m, ∀ i, x i = .throw m) ∨ ∃ w, ∀ i, x i = .ub w

theorem noContact {R : (ι → α) → Prop} (hR : Closed R) (r : Rib α) (pose : Affine α) :
    Family R fun _ => .ok (false, r.noContact pose) :=
  .inl ⟨false, r.noContact pose, fun _ => Scalar.zero, hR.zero, fun _ => rfl⟩

theorem contrib (r : Rib α) (pose : Affine α) (t : TriangleGround α) (f : α) (seg : Segment α) :
    r.contrib pose (paint t f) seg = (r.contrib pose t seg).map fun c => { c with friction := f } := by
  unfold Rib.contrib paint
  dsimp only
  rw [apply_ite (Option.map _)]
  rfl

theorem geomLoop {R : (ι → α) → Prop} (hR : Closed R) (r : Rib α) (pose : Affine α) :
    ∀ (L : List (TriangleGround α × (ι → α))), (∀ p ∈ L, R p.2) → ∀ (a : Rib.Acc α) (f : ι → α), R f →
      (∃ (a' : Rib.Acc α) (f' : ι → α), R f' ∧ ∀ i, r.geomLoop pose (faces L i) { a with friction := f i } = .ok { a' with friction := f' i }) ∨
      (∃ m, ∀ i, r.geomLoop pose (faces L i) { a with friction := f i } = .throw m) ∨
      ∃ w, ∀ i, r.geomLoop pose (faces L i) { a with friction := f i } = .ub w
  | [], _, a, f, hf => .inl ⟨a, f, hf, fun i => rfl⟩
  | p :: L, hL, a, f, hf => by
    have step : ∀ i, r.geomLoop pose (faces (p :: L) i) { a with friction := f i } =
        (do match ← Inter.triangleDisk p.1.tri (r.diskGrd pose) Scalar.eps with
            | none => r.geomLoop pose (faces L i) { a with friction := f i }
            | some seg =>
              match r.contrib pose (paint p.1 (p.2 i)) seg with
              | none => return { a with friction := f i }
              | some c => r.geomLoop pose (faces L i) (Rib.Acc.add { a with friction := f i } c)) := fun i => rfl
    rcases h : Inter.triangleDisk p.1.tri (r.diskGrd pose) Scalar.eps with (_ | seg) | m | w
    · simp only [step, h, Res.bind_ok]
      exact geomLoop hR r pose L (fun q hq => hL q (by simp [hq])) a f hf
    · simp only [step, h, Res.bind_ok, contrib]
      rcases r.contrib pose p.1 seg with _ | c
      · exact .inl ⟨a, f, hf, fun i => rfl⟩
      · have := geomLoop hR r pose L (fun q hq => hL q (by simp [hq])) (Rib.Acc.add a c) (fun i => f i +. c.volume *. p.2 i)
          (hR.add _ _ hf (hR.mul _ _ (hL p (by simp))))
        exact this
    · exact .inr (.inl ⟨m, fun i => by rw [step, h]; rfl⟩)
    · exact .inr (.inr ⟨w, fun i => by rw [step, h]; rfl⟩)

theorem geometric {R : (ι → α) → Prop} (hR : Closed R) (r : Rib α) (pose : Affine α) (L : List (TriangleGround α × (ι → α)))
    (hL : ∀ p ∈ L, R p.2) : Family R fun i => r.envelopGeometricMesh (faces L i) pose := by
  have e : ∀ i, r.envelopGeometricMesh (faces L i) pose =
      (r.geomLoop pose (faces L i) { (Rib.Acc.init : Rib.Acc α) with friction := (fun _ => Scalar.zero : ι → α) i } >>=
        fun acc => .ok (r.geomFinish pose acc)) := fun i => rfl
  simp only [Family, e]
  rcases geomLoop hR r pose L hL Rib.Acc.init (fun _ => Scalar.zero) hR.zero with ⟨a, f, hf, h⟩ | ⟨m, h⟩ | ⟨w, h⟩
  · simp only [h, Res.bind_ok]
    unfold Rib.geomFinish
    dsimp only
    by_cases hc : (a.hit && (Scalar.eps <. a.area || Scalar.eps <. a.volume)) = true
    · simp only [hc, if_true]
      exact .inl ⟨true, ⟨V3.sdiv a.point a.volume, V3.normalized (V3.sdiv a.normal a.volume), Scalar.zero,
        r.radius -. V3.norm (V3.sub (V3.sdiv a.point a.volume) (r.centerGrd pose)), a.area, a.volume⟩, _, hR.div a.volume f hf,
        fun i => rfl⟩
    · simp only [hc]
      exact noContact hR r pose
  · exact .inr (.inl ⟨m, fun i => by rw [h i]; rfl⟩)
  · exact .inr (.inr ⟨w, fun i => by rw [h i]; rfl⟩)

theorem highest (i : ι) : ∀ (l : List (V3 α × (ι → α))) (b : V3 α × (ι → α)), ∃ h ∈ b :: l,
    ∀ i, Rib.highest (b.1, b.2 i) (l.map fun h => (h.1, h.2 i)) = (h.1, h.2 i)
  | [], b => ⟨b, by simp, fun i => rfl⟩
  | c :: l, b => by
    obtain ⟨h, hm, he⟩ := highest i l (if b.1.z <. c.1.z then c else b)
    refine ⟨h, ?_, fun i => ?_⟩
    · split at hm <;> simp at hm ⊢ <;> tauto
    · rw [← he i]
      show Rib.highest (if b.1.z <. c.1.z then (c.1, c.2 i) else (b.1, b.2 i)) _ = _
      split <;> rfl

theorem line [Nonempty ι] {R : (ι → α) → Prop} (L : List (TriangleGround α × (ι → α))) (hL : ∀ p ∈ L, R p.2) (l : Line α) :
    (∀ i, Rib.samplingLineMesh (faces L i) l = none) ∨ ∃ p f, R f ∧ ∀ i, Rib.samplingLineMesh (faces L i) l = some (p, f i) := by
  have e : ∀ i, Rib.samplingHits (faces L i) l =
      (L.filterMap fun p => (Inter.lineTriangle l p.1.tri Scalar.eps).map fun x => (x, p.2)).map fun h => (h.1, h.2 i) := by
    intro i
    unfold Rib.samplingHits faces
    rw [List.filterMap_map, List.map_filterMap]
    congr 1
    funext p
    simp only [Function.comp, paint, Option.map_map]
    rfl
  have hmem : ∀ h ∈ L.filterMap fun p => (Inter.lineTriangle l p.1.tri Scalar.eps).map fun x => (x, p.2), R h.2 := by
    intro h hh
    obtain ⟨p, hp, hx⟩ := List.mem_filterMap.1 hh
    obtain ⟨x, -, rfl⟩ := Option.map_eq_some_iff.1 hx
    exact hL p hp
  unfold Rib.samplingLineMesh
  simp only [e]
  revert hmem
  generalize (L.filterMap fun p => (Inter.lineTriangle l p.1.tri Scalar.eps).map fun x => (x, p.2)) = H
  intro hmem
  rcases H with _ | ⟨b, H⟩
  · exact .inl fun i => rfl
  · obtain ⟨h, hm, he⟩ := highest (Classical.arbitrary ι) H b
    exact .inr ⟨h.1, h.2, hmem h hm, fun i => congrArg some (he i)⟩

theorem samplingOf {R : (ι → α) → Prop} (hR : Closed R) (r : Rib α) (pose : Affine α) (sample : ι → Line α → Option (V3 α × α))
    (hs : ∀ l, (∀ i, sample i l = none) ∨ ∃ p f, R f ∧ ∀ i, sample i l = some (p, f i)) :
    Family R fun i => .ok (r.envelopSampling (sample i) pose) := by
  unfold Rib.envelopSampling
  rcases hs (r.lineXp pose) with h0 | ⟨p0, f0, r0, h0⟩
  · simp only [h0]; exact noContact hR r pose
  rcases hs (r.lineXm pose) with h1 | ⟨p1, f1, r1, h1⟩
  · simp only [h0, h1]; exact noContact hR r pose
  rcases hs (r.lineYp pose) with h2 | ⟨p2, f2, r2, h2⟩
  · simp only [h0, h1, h2]; exact noContact hR r pose
  rcases hs (r.lineYm pose) with h3 | ⟨p3, f3, r3, h3⟩
  · simp only [h0, h1, h2, h3]; exact noContact hR r pose
  simp only [h0, h1, h2, h3]
  have hf := hR.div (lit 4 1) _ (hR.add _ _ (hR.add _ _ (hR.add _ _ r0 r1) r2) r3)
  generalize V3.sdiv (V3.add (V3.add (V3.add p0 p1) p2) p3) (lit 4 1) = point
  generalize V3.normalized (V3.cross (V3.sub p0 p1) (V3.sub p2 p3)) = normal
  generalize r.radius *. _ -. _ = depth
  split
  · exact .inl ⟨true, ⟨point, normal, Scalar.zero, depth, Rib.depthArea r.radius r.width depth, Rib.depthVolume r.radius r.width depth⟩, _, hf,
      fun i => rfl⟩
  · exact noContact hR r pose

theorem mesh [Nonempty ι] {R : (ι → α) → Prop} (hR : Closed R) (r : Rib α) (pose : Affine α) (method : String)
    (L : List (TriangleGround α × (ι → α))) (hL : ∀ p ∈ L, R p.2) : Family R fun i => r.envelopMesh (faces L i) pose method := by
  unfold Rib.envelopMesh
  split
  · exact geometric hR r pose L hL
  · split
    · exact samplingOf hR r pose _ fun l => line L hL l
    · exact .inr (.inl ⟨_, fun i => rfl⟩)

theorem flat {R : (ι → α) → Prop} (hR : Closed R) (r : Rib α) (pose : Affine α) (method : String) (g : Flat α) (f : ι → α) (hf : R f) :
    Family R fun i => r.envelopFlat (paintFlat g (f i)) pose method := by
  unfold Rib.envelopFlat
  split
  · unfold Rib.envelopGeometricFlat paintFlat
    dsimp only
    rcases Inter.planeDisk g.plane (r.diskGrd pose) Scalar.eps with _ | seg
    · exact noContact hR r pose
    · dsimp only
      split
      · generalize hd : r.radius -. V3.norm (V3.sub seg.centroid (r.centerGrd pose)) = depth
        generalize hn : V3.normalized (V3.cross (r.normalGrd pose) (V3.sub (r.centerGrd pose) seg.centroid)) = nt
        exact .inl ⟨true, ⟨seg.centroid, V3.normalized (V3.sub g.normal (V3.smul (V3.dot g.normal nt) nt)), Scalar.zero, depth,
          Rib.depthArea r.radius r.width depth, Rib.depthVolume r.radius r.width depth⟩, f, hf, fun i => rfl⟩
      · exact noContact hR r pose
  · split
    · refine samplingOf hR r pose (fun i => Rib.samplingLineFlat (paintFlat g (f i))) fun l => ?_
      unfold Rib.samplingLineFlat paintFlat
      dsimp only
      rcases Inter.linePlane l g.plane Scalar.eps with _ | p
      · exact .inl fun i => rfl
      · exact .inr ⟨p, f, hf, fun i => rfl⟩
    · exact .inr (.inl ⟨_, fun i => rfl⟩)

/-- The storage of records with the `i`-th of several frictions each. -/
def vec (v : RecVec α) (f : Nat → ι → α) (i : ι) : RecVec α := { v with mem := fun k => { v.mem k with friction := f k i } }

/-- Several runs over the ribs with the same outcome but for the frictions. -/
def Runs (R : (ι → α) → Prop) (n m : Nat) (x : ι → MRes (RecVec α) Bool) : Prop :=
  (∃ v f b, (∀ k, n ≤ k → k < m → R (f k)) ∧ ∀ i, x i = .ok (vec v f i) b) ∨ (∃ v f w, ∀ i, x i = .throw (vec v f i) w) ∨ ∃ w, ∀ i, x i = .ub w

theorem ribLoop {R : (ι → α) → Prop} (pol : Policy) (comb : Bool → Bool → Bool) (F : ι → Nat → Rib α → Res (Bool × Output α)) (n0 : Nat) :
    ∀ (rs : List (Rib α)) (n : Nat), (∀ j r, rs[j]? = some r → Family R fun i => F i (n + j) r) →
      ∀ (v : RecVec α) (f : Nat → ι → α) (b : Bool), (∀ k, n0 ≤ k → k < n → R (f k)) →
      Runs R n0 (n + rs.length) fun i => Shell.ribLoop pol comb (F i) rs n (vec v f i) b
  | [], n, _, v, f, b, hf => .inl ⟨v, f, b, hf, fun i => rfl⟩
  | r :: rs, n, hF, v, f, b, hf => by
    have hacc : ∀ i, (vec v f i).accessible pol n = v.accessible pol n := fun i => rfl
    by_cases ha : v.accessible pol n = true
    · rcases hF 0 r rfl with ⟨c, o, g, hg, h⟩ | ⟨m, h⟩ | ⟨w, h⟩
      · simp only [Nat.add_zero] at h
        have := ribLoop pol comb F n0 rs (n + 1) (fun j r hj => by
          have := hF (j + 1) r (by simpa using hj)
          simpa [Nat.add_assoc, Nat.add_comm 1 j] using this) (v.set n o) (fun k => if k = n then g else f k) (comb c b) (by
            intro k h1 h2
            by_cases hk : k = n
            · simp only [hk, if_true]; exact hg
            · simp only [hk, if_false]; exact hf k h1 (by omega))
        rw [List.length_cons, show n + (rs.length + 1) = n + 1 + rs.length by omega]
        have e : (fun i => Shell.ribLoop pol comb (F i) (r :: rs) n (vec v f i) b) =
            fun i => Shell.ribLoop pol comb (F i) rs (n + 1) (vec (v.set n o) (fun k => if k = n then g else f k) i) (comb c b) := by
          funext i
          rw [Shell.ribLoop, hacc, ha, h i]
          simp only [Bool.not_true, Bool.false_eq_true, if_false]
          congr 1
          unfold vec RecVec.set
          congr 1
          funext k
          by_cases hk : k = n <;> simp [hk]
        rw [e]
        exact this
      · simp only [Nat.add_zero] at h
        exact .inr (.inl ⟨v, f, m, fun i => by
          show Shell.ribLoop pol comb (F i) (r :: rs) n (vec v f i) b = _
          rw [Shell.ribLoop, hacc, ha, h i]; rfl⟩)
      · simp only [Nat.add_zero] at h
        exact .inr (.inr ⟨w, fun i => by
          show Shell.ribLoop pol comb (F i) (r :: rs) n (vec v f i) b = _
          rw [Shell.ribLoop, hacc, ha, h i]; rfl⟩)
    · exact .inr (.inr ⟨"m_out[i] out of range", fun i => by
        show Shell.ribLoop pol comb (F i) (r :: rs) n (vec v f i) b = _
        rw [Shell.ribLoop, hacc]; simp only [ha]; rfl⟩)

/-- Several outcomes of a setup that differ in the frictions only. -/
def Setups (R : (ι → α) → Prop) (s : Shell α) (x : ι → MRes (Shell α) Bool) : Prop :=
  (∃ (base : Shell α) (v : RecVec α) (f : Nat → ι → α) (c : ι → List (List (TriangleGround α))) (b : Bool), base.ribs = s.ribs ∧
    (∀ k < s.size, R (f k)) ∧ ∀ i, x i = .ok { base with out := vec v f i, cands := c i } b) ∨
  (∃ (base : Shell α) (v : RecVec α) (f : Nat → ι → α) (c : ι → List (List (TriangleGround α))) (w : String),
    ∀ i, x i = .throw { base with out := vec v f i, cands := c i } w) ∨ ∃ w, ∀ i, x i = .ub w

theorem setups {R : (ι → α) → Prop} {s : Shell α} (base : Shell α) (hb : base.ribs = s.ribs) (c : ι → List (List (TriangleGround α)))
    {y : ι → MRes (RecVec α) Bool} (h : Runs R 0 (0 + s.ribs.length) y) :
    Setups R s fun i => Shell.withOut { base with cands := c i } (y i) := by
  rcases h with ⟨v, f, b, hf, h⟩ | ⟨v, f, w, h⟩ | ⟨w, h⟩
  · exact .inl ⟨base, v, f, c, b, hb, fun k hk => hf k (Nat.zero_le k) (by simpa [Shell.size] using hk), fun i => by simp only [h]; rfl⟩
  · exact .inr (.inl ⟨base, v, f, c, w, fun i => by simp only [h]; rfl⟩)
  · exact .inr (.inr ⟨w, fun i => by simp only [h]; rfl⟩)

theorem vec_self (v : RecVec α) (i : ι) : vec v (fun k _ => (v.mem k).friction) i = v := rfl

theorem setupFlat {R : (ι → α) → Prop} (hR : Closed R) (pol : Policy) (s : Shell α) (g : Flat α) (f : ι → α) (hf : R f) (pose : Affine α)
    (method : String) : Setups R s fun i => s.setupFlat pol (paintFlat g (f i)) pose method := by
  have h := ribLoop (R := R) pol (fun c _ => c) (fun i _ r => r.envelopFlat (paintFlat g (f i)) pose method) 0 s.ribs 0
    (fun j r _ => flat hR r pose method g f hf) s.out (fun k _ => (s.out.mem k).friction) false (fun k h1 h2 => absurd h2 (by omega))
  simp only [vec_self] at h
  exact setups (s.transform pose).updateBBox rfl (fun _ => s.cands) h

theorem lookup (m : Mesh α) (φ : ι → Nat → α) : ∀ ps : List (Box α × Box α),
    (∃ L : List (TriangleGround α × (ι → α)), (∀ p ∈ L, ∃ j, p.2 = fun i => φ i j) ∧
      ∀ i, (paintMesh m (φ i)).lookupAll ps = .ok (faces L i)) ∨
    (∃ w, ∀ i, (paintMesh m (φ i)).lookupAll ps = .throw w) ∨ ∃ w, ∀ i, (paintMesh m (φ i)).lookupAll ps = .ub w
  | [] => .inl ⟨[], by simp, fun i => rfl⟩
  | p :: ps => by
    have hp : (∃ t j, ∀ i, (paintMesh m (φ i)).ptrTriangleground p.1.id = .ok (paint t (φ i j))) ∨
        ∃ w, ∀ i, (paintMesh m (φ i)).ptrTriangleground p.1.id = .ub w := by
      unfold Mesh.ptrTriangleground paintMesh paintFaces
      by_cases h0 : 0 ≤ p.1.id
      · simp only [h0, if_true, List.getElem?_mapIdx]
        rcases m.triangles[p.1.id.toNat]? with _ | t
        · exact .inr ⟨_, fun i => rfl⟩
        · exact .inl ⟨t, _, fun i => rfl⟩
      · simp only [h0, if_false]
        exact .inr ⟨_, fun i => rfl⟩
    rcases hp with ⟨t, j, hp⟩ | ⟨w, hp⟩
    · rcases lookup m φ ps with ⟨L, hL, h⟩ | ⟨w, h⟩ | ⟨w, h⟩
      · exact .inl ⟨(t, fun i => φ i j) :: L, by
          intro q hq
          rcases List.mem_cons.1 hq with rfl | hq
          · exact ⟨j, rfl⟩
          · exact hL q hq, fun i => by rw [Mesh.lookupAll, hp, Res.bind_ok, h, Res.bind_ok]; rfl⟩
      · exact .inr (.inl ⟨w, fun i => by rw [Mesh.lookupAll, hp, Res.bind_ok, h]; rfl⟩)
      · exact .inr (.inr ⟨w, fun i => by rw [Mesh.lookupAll, hp, Res.bind_ok, h]; rfl⟩)
    · exact .inr (.inr ⟨w, fun i => by rw [Mesh.lookupAll, hp]; rfl⟩)

theorem candidates (pose : Affine α) (method : String) (L : List (TriangleGround α × (ι → α))) (r : Rib α) :
    ∃ L', L' ⊆ L ∧ ∀ i, Shell.ribCandidates pose method (faces L i) r = faces L' i := by
  refine ⟨L.filter fun p => Shell.isCandidate (Plane.normalize ⟨pose.trans, pose.linear.c1⟩)
    (decide (method = "geometric") && decide (L.length > 3)) r.center.y p.1, fun _ h => List.mem_of_mem_filter h, fun i => ?_⟩
  unfold Shell.ribCandidates Shell.refines faces
  rw [List.filter_map, List.length_map]
  rfl

theorem setupMesh [Nonempty ι] {R : (ι → α) → Prop} (hR : Closed R) {pol : Policy} {s : Shell α} (hs : s.Reachable pol) (m : Mesh α)
    (φ : ι → Nat → α) (hφ : ∀ j, R fun i => φ i j) (pose : Affine α) (method : String) :
    Setups R s fun i => s.setupMesh pol (paintMesh m (φ i)) pose method := by
  have hq : (∃ L : List (TriangleGround α × (ι → α)), (∀ p ∈ L, ∃ j, p.2 = fun i => φ i j) ∧
      ∀ i, (paintMesh m (φ i)).intersection (s.transform pose).updateBBox.bbox = .ok (faces L i)) ∨
      (∃ w, ∀ i, (paintMesh m (φ i)).intersection (s.transform pose).updateBBox.bbox = .throw w) ∨
      ∃ w, ∀ i, (paintMesh m (φ i)).intersection (s.transform pose).updateBBox.bbox = .ub w := by
    have e : ∀ i, (paintMesh m (φ i)).intersection (s.transform pose).updateBBox.bbox =
        (Tree.inter m.tree (Tree.build [(s.transform pose).updateBBox.bbox]) false >>= (paintMesh m (φ i)).lookupAll) := fun i => rfl
    rcases h : Tree.inter m.tree (Tree.build [(s.transform pose).updateBBox.bbox]) false with ps | w | w
    · simp only [e, h, Res.bind_ok]
      exact lookup m φ ps
    · exact .inr (.inl ⟨w, fun i => by rw [e, h]; rfl⟩)
    · exact .inr (.inr ⟨w, fun i => by rw [e, h]; rfl⟩)
  rcases hq with ⟨L, hL, hq⟩ | ⟨w, hq⟩ | ⟨w, hq⟩
  · have hLR : ∀ p ∈ L, R p.2 := fun p hp => by
      obtain ⟨j, hj⟩ := hL p hp
      rw [hj]; exact hφ j
    by_cases hne : L = []
    · subst hne
      have e : (fun i => s.setupMesh pol (paintMesh m (φ i)) pose method) = _ := funext fun i => Shell.setupMesh_none (hq i)
      rw [e]
      have h := ribLoop (R := R) pol (fun _ _ => false) (fun _ _ r => .ok (false, r.noContact pose)) 0 s.ribs 0
        (fun j r _ => noContact hR r pose) s.out (fun k (_ : ι) => (s.out.mem k).friction) false (fun k h1 h2 => absurd h2 (by omega))
      simp only [vec_self] at h
      exact setups (s.transform pose).updateBBox rfl (fun _ => s.cands) h
    · have hne' : ∀ i, faces L i ≠ [] := fun i => by simpa [faces] using hne
      have e : (fun i => s.setupMesh pol (paintMesh m (φ i)) pose method) = _ :=
        funext fun i => Shell.setupMesh_some hs.inv.cands (hq i) (hne' i)
      rw [e]
      have h := ribLoop (R := R) pol (fun c b => c || b)
        (fun i _ r => r.envelopMesh (Shell.ribCandidates pose method (faces L i) r) pose method) 0 s.ribs 0
        (fun j r _ => by
          obtain ⟨L', h1, h2⟩ := candidates pose method L r
          simp only [h2]
          exact mesh hR r pose method L' fun p hp => hLR p (h1 hp))
        s.out (fun k (_ : ι) => (s.out.mem k).friction) false (fun k h1 h2 => absurd h2 (by omega))
      simp only [vec_self] at h
      exact setups (s.transform pose).updateBBox rfl
        (fun i => s.ribs.map (Shell.ribCandidates pose method (faces L i)) ++ s.cands.drop s.ribs.length) h
  · exact .inr (.inl ⟨(s.transform pose).updateBBox, s.out, fun k _ => (s.out.mem k).friction, fun _ => s.cands, w, fun i => by
      simp only [Shell.setupMesh, hq i]; rfl⟩)
  · exact .inr (.inr ⟨w, fun i => by simp only [Shell.setupMesh, hq i]⟩)

/-- Everything is related. -/
theorem top : Closed (α := α) fun (_ : ι → α) => True := ⟨trivial, fun _ _ _ _ => trivial, fun _ _ _ => trivial, fun _ _ _ => trivial, fun _ _ _ => trivial⟩

/-- The third number is a combination of the first two. -/
theorem combination (a b : ℝ) : Closed fun (f : Fin 3 → ℝ) => f 2 = a * f 0 + b * f 1 := by
  constructor
  · simp
  · intro f g hf hg; simp only [real_add]; rw [hf, hg]; ring
  · intro v f hf; simp only [real_mul]; rw [hf]; ring
  · intro v f hf; simp only [real_mul]; rw [hf]; ring
  · intro v f hf; simp only [real_div]; rw [hf]; ring

theorem Setups.same {s : Shell α} {x : Bool → MRes (Shell α) Bool} (h : Setups (fun _ => True) s x) : SameButFrictions (x false) (x true) := by
  rcases h with ⟨base, v, f, c, b, -, -, h⟩ | ⟨base, v, f, c, w, h⟩ | ⟨w, h⟩
  · exact .inl ⟨_, _, _, h _, h _, ⟨rfl, rfl, rfl, rfl, rfl, rfl, fun k => rfl⟩⟩
  · exact .inr (.inl ⟨_, _, _, h _, h _, ⟨rfl, rfl, rfl, rfl, rfl, rfl, fun k => rfl⟩⟩)
  · exact .inr (.inr ⟨w, h _, h _⟩)

end Paint

/-- Giving the faces their frictions before or after building the mesh makes no difference. -/
theorem C139_build (ts : List (TriangleGround α)) (φ : Nat → α) :
    Mesh.ofTriangles (paintFaces ts φ) = paintMesh (Mesh.ofTriangles ts) φ := by
  have : (paintFaces ts φ).map (·.bbox) = ts.map (·.bbox) := by
    apply List.ext_getElem?
    intro j
    simp only [paintFaces, List.getElem?_map, List.getElem?_mapIdx, Option.map_map]
    rcases ts[j]? with _ | t <;> rfl
  unfold Mesh.ofTriangles Mesh.buildAABBtree Mesh.updateBBoxes paintMesh
  simp only [this]

/-- **C139, any arithmetic**: setting up a tyre on grounds that differ in their frictions only has the same outcome, and the records of the
ribs differ in the friction only: on flat grounds and on meshes, with either method, at any pose. -/
theorem C139_setup {pol : Policy} {s : Shell α} (hs : s.Reachable pol) (pose : Affine α) (method : String) :
    (∀ (g : Flat α) (f f' : α), SameButFrictions (s.setupFlat pol (paintFlat g f) pose method) (s.setupFlat pol (paintFlat g f') pose method)) ∧
    ∀ (m : Mesh α) (φ φ' : Nat → α),
      SameButFrictions (s.setupMesh pol (paintMesh m φ) pose method) (s.setupMesh pol (paintMesh m φ') pose method) :=
  ⟨fun g f f' => (Paint.setupFlat Paint.top pol s g (fun b : Bool => if b then f' else f) trivial pose method).same,
    fun m φ φ' => (Paint.setupMesh Paint.top hs m (fun b : Bool => if b then φ' else φ) (fun _ => trivial) pose method).same⟩

namespace Paint
variable {ι : Type}

theorem same_list {β : Type} (g : β → Output α → β) (hg : ∀ b o o', SameButFriction o o' → g b o' = g b o) {l l' : List (Output α)}
    (h : List.Forall₂ SameButFriction l l') : ∀ b, l'.foldl g b = l.foldl g b := by
  induction h with
  | nil => intro b; rfl
  | cons h _ ih => intro b; rw [List.foldl_cons, List.foldl_cons, hg b _ _ h, ih]

theorem same_reads (pol : Policy) {v v' : RecVec α} (h1 : v'.size = v.size) (h2 : v'.cap = v.cap) (h : ∀ k, SameButFriction (v.mem k) (v'.mem k)) :
    ∀ k i, (∃ l l', Shell.readFrom pol v k i = .ok l ∧ Shell.readFrom pol v' k i = .ok l' ∧ List.Forall₂ SameButFriction l l') ∨
      ∃ w, Shell.readFrom pol v k i = .ub w ∧ Shell.readFrom pol v' k i = .ub w
  | 0, i => .inl ⟨[], [], rfl, rfl, .nil⟩
  | k + 1, i => by
    have hacc : v'.accessible pol i = v.accessible pol i := by unfold RecVec.accessible; rw [h1, h2]
    by_cases ha : v.accessible pol i = true
    · have e1 : v.read pol i = .ok (v.mem i) := by unfold RecVec.read; rw [if_pos ha]
      have e2 : v'.read pol i = .ok (v'.mem i) := by unfold RecVec.read; rw [hacc, if_pos ha]
      rcases same_reads pol h1 h2 h k (i + 1) with ⟨l, l', g1, g2, g⟩ | ⟨w, g1, g2⟩
      · exact .inl ⟨_, _, by rw [Shell.readFrom, e1, Res.bind_ok, g1]; rfl, by rw [Shell.readFrom, e2, Res.bind_ok, g2]; rfl, .cons (h i) g⟩
      · exact .inr ⟨w, by rw [Shell.readFrom, e1, Res.bind_ok, g1]; rfl, by rw [Shell.readFrom, e2, Res.bind_ok, g2]; rfl⟩
    · have e1 : v.read pol i = .ub "m_out[i] out of range" := by unfold RecVec.read; rw [if_neg ha]
      have e2 : v'.read pol i = .ub "m_out[i] out of range" := by unfold RecVec.read; rw [hacc, if_neg ha]
      exact .inr ⟨_, by rw [Shell.readFrom, e1]; rfl, by rw [Shell.readFrom, e2]; rfl⟩

end Paint

/-- **C139, the values of the tyre, any arithmetic**: tyres whose records differ in the friction only have the same contact point, normal,
frame, depth, volume and relative angles, and so have their ribs, with the same areas. -/
theorem C139_values {s s' : Shell α} (h : SameTyre s s') (pol : Policy) :
    s'.contactPoint pol = s.contactPoint pol ∧ s'.contactNormal pol = s.contactNormal pol ∧ s'.contactDepth pol = s.contactDepth pol ∧
    s'.contactVolume pol = s.contactVolume pol ∧ s'.contactPointAffine pol = s.contactPointAffine pol ∧
    s'.relativeAngles pol = s.relativeAngles pol ∧
    ∀ i, s'.contactPointAt pol i = s.contactPointAt pol i ∧ s'.contactNormalAt pol i = s.contactNormalAt pol i ∧
      s'.contactDepthAt pol i = s.contactDepthAt pol i ∧ s'.contactAreaAt pol i = s.contactAreaAt pol i ∧
      s'.contactVolumeAt pol i = s.contactVolumeAt pol i ∧ s'.contactPointAffineAt pol i = s.contactPointAffineAt pol i ∧
      s'.relativeAnglesAt pol i = s.relativeAnglesAt pol i := by
  have hsz : s'.size = s.size := by unfold Shell.size; rw [h.ribs]
  have hy : s'.yAxis = s.yAxis := by unfold Shell.yAxis; rw [h.pose]
  have hrec : (∃ l l', s.records pol = .ok l ∧ s'.records pol = .ok l' ∧ List.Forall₂ SameButFriction l l') ∨
      ∃ w, s.records pol = .ub w ∧ s'.records pol = .ub w := by
    unfold Shell.records
    rw [hsz]
    exact Paint.same_reads pol h.size h.cap h.records _ _
  have hpt : ∀ o o' : Output α, SameButFriction o o' → o'.point = o.point ∧ o'.normal = o.normal ∧ o'.depth = o.depth ∧ o'.area = o.area ∧
      o'.volume = o.volume := by
    intro o o' e
    rw [SameButFriction] at e
    rw [e]
    exact ⟨rfl, rfl, rfl, rfl, rfl⟩
  have hV : s'.contactVolume pol = s.contactVolume pol := by
    unfold Shell.contactVolume
    rcases hrec with ⟨l, l', e1, e2, e⟩ | ⟨w, e1, e2⟩
    · rw [e1, e2, Res.bind_ok, Res.bind_ok]
      rw [Paint.same_list _ (fun b o o' e => by rw [(hpt o o' e).2.2.2.2]) e]
    · rw [e1, e2]
  have hP : s'.contactPoint pol = s.contactPoint pol := by
    unfold Shell.contactPoint
    rw [hV, hsz]
    rcases hrec with ⟨l, l', e1, e2, e⟩ | ⟨w, e1, e2⟩
    · rw [e1, e2]
      simp only [Res.bind_ok]
      rw [Paint.same_list (fun p o => V3.add p o.point) (fun b o o' e => by rw [(hpt o o' e).1]) e,
        Paint.same_list (fun p o => V3.add p (V3.smul o.volume o.point)) (fun b o o' e => by rw [(hpt o o' e).1, (hpt o o' e).2.2.2.2]) e]
    · rw [e1, e2]
  have hN : s'.contactNormal pol = s.contactNormal pol := by
    unfold Shell.contactNormal
    rw [hV, hsz]
    rcases hrec with ⟨l, l', e1, e2, e⟩ | ⟨w, e1, e2⟩
    · rw [e1, e2]
      simp only [Res.bind_ok]
      rw [Paint.same_list (fun p o => V3.add p o.normal) (fun b o o' e => by rw [(hpt o o' e).2.1]) e,
        Paint.same_list (fun p o => V3.add p (V3.smul o.volume o.normal)) (fun b o o' e => by rw [(hpt o o' e).2.1, (hpt o o' e).2.2.2.2]) e]
    · rw [e1, e2]
  have hD : s'.contactDepth pol = s.contactDepth pol := by
    unfold Shell.contactDepth
    rw [hV, hsz]
    rcases hrec with ⟨l, l', e1, e2, e⟩ | ⟨w, e1, e2⟩
    · rw [e1, e2]
      simp only [Res.bind_ok]
      rw [Paint.same_list (fun f o => f +. o.depth *. o.volume) (fun b o o' e => by rw [(hpt o o' e).2.2.1, (hpt o o' e).2.2.2.2]) e]
    · rw [e1, e2]
  have hF : s'.contactPointAffine pol = s.contactPointAffine pol := by unfold Shell.contactPointAffine; rw [hP, hN, hy]
  refine ⟨hP, hN, hD, hV, hF, by unfold Shell.relativeAngles; rw [hF, h.pose], fun i => ?_⟩
  have hread : (∃ o o', s.out.read pol i = .ok o ∧ s'.out.read pol i = .ok o' ∧ SameButFriction o o') ∨
      ∃ w, s.out.read pol i = .ub w ∧ s'.out.read pol i = .ub w := by
    have hacc : s'.out.accessible pol i = s.out.accessible pol i := by unfold RecVec.accessible; rw [h.size, h.cap]
    unfold RecVec.read
    rw [hacc]
    split
    · exact .inl ⟨_, _, rfl, rfl, h.records i⟩
    · exact .inr ⟨_, rfl, rfl⟩
  have hrib : s'.ribAt i = s.ribAt i := by unfold Shell.ribAt; rw [h.ribs]
  unfold Shell.contactPointAt Shell.contactNormalAt Shell.contactDepthAt Shell.contactAreaAt Shell.contactVolumeAt Shell.relativeAnglesAt
    Shell.contactPointAffineAt
  rw [hrib, hy, h.pose]
  rcases hread with ⟨o, o', e1, e2, e⟩ | ⟨w, e1, e2⟩
  · obtain ⟨a1, a2, a3, a4, a5⟩ := hpt o o' e
    rw [e1, e2]
    simp only [Res.bind_ok, a1, a2, a3, a4, a5]
    exact ⟨trivial, trivial, trivial, trivial, trivial, trivial, trivial⟩
  · rw [e1, e2]
    exact ⟨rfl, rfl, rfl, rfl, rfl, rfl, rfl⟩

/-- The frictions of a tyre and its ribs are a combination of those of two tyres. -/
structure Spec.Combined (pol : Policy) (a b : ℝ) (sA sB sC : Shell ℝ) : Prop where
  ribs : ∀ i < sA.size, ∃ fA fB, sA.contactFrictionAt pol i = .ok fA ∧ sB.contactFrictionAt pol i = .ok fB ∧
    sC.contactFrictionAt pol i = .ok (a * fA + b * fB)
  tyre : ∃ fA fB, sA.contactFriction pol = .ok fA ∧ sB.contactFriction pol = .ok fB ∧ sC.contactFriction pol = .ok (a * fA + b * fB)

namespace Paint

theorem combined {pol : Policy} {s sA sB sC : Shell ℝ} {a b : ℝ} {base : Shell ℝ} {v : RecVec ℝ} {f : Nat → Fin 3 → ℝ}
    {c : Fin 3 → List (List (TriangleGround ℝ))} (hb : base.ribs = s.ribs) (hf : ∀ k < s.size, f k 2 = a * f k 0 + b * f k 1)
    (hacc : ∀ i < s.size, v.accessible pol i = true)
    (hA : sA = { base with out := vec v f 0, cands := c 0 }) (hB : sB = { base with out := vec v f 1, cands := c 1 })
    (hC : sC = { base with out := vec v f 2, cands := c 2 }) : Combined pol a b sA sB sC := by
  have hsA : sA.size = s.size := by unfold Shell.size; rw [hA]; exact congrArg _ hb
  have hsB : sB.size = s.size := by unfold Shell.size; rw [hB]; exact congrArg _ hb
  have hsC : sC.size = s.size := by unfold Shell.size; rw [hC]; exact congrArg _ hb
  have rd : ∀ (k : Fin 3) (S : Shell ℝ), S = { base with out := vec v f k, cands := c k } → Reports pol S fun i => { v.mem i with friction := f i k } := by
    intro k S hS
    rw [Shell.reports_iff]
    intro i hi
    have : i < s.size := by
      have e : S.size = s.size := by unfold Shell.size; rw [hS]; exact congrArg _ hb
      omega
    rw [hS]
    show (vec v f k).read pol i = _
    unfold RecVec.read
    have ha : (vec v f k).accessible pol i = true := hacc i this
    rw [if_pos ha]
    rfl
  have rA := rd 0 sA hA
  have rB := rd 1 sB hB
  have rC := rd 2 sC hC
  refine ⟨fun i hi => ⟨f i 0, f i 1, rA.friction i hi, rB.friction i (by omega), ?_⟩, ?_⟩
  · rw [rC.friction i (by omega)]
    exact congrArg _ (hf i (by omega))
  · have fr : ∀ (k : Fin 3) (S : Shell ℝ), S.size = s.size → Reports pol S (fun i => { v.mem i with friction := f i k }) →
        S.contactFriction pol = .ok (if ∑ i ∈ Finset.range s.size, (v.mem i).volume < Scalar.eps then
          (∑ i ∈ Finset.range s.size, f i k) / s.size else
          (∑ i ∈ Finset.range s.size, f i k * (v.mem i).volume) / ∑ i ∈ Finset.range s.size, (v.mem i).volume) := by
      intro k S hS hr
      have hV := C42_total_real hr
      rw [Shell.contactFriction, hV, Shell.records_of_reports hr, Res.bind_ok, Res.bind_ok]
      rw [Shell.foldl_range (fun i => ({ v.mem i with friction := f i k } : Output ℝ)) (·.friction),
        Shell.foldl_range (fun i => ({ v.mem i with friction := f i k } : Output ℝ)) (fun r => r.friction *. r.volume)]
      simp only [real_lt, decide_eq_true_eq, hS, ribSum_real, Res.pure_eq, real_div, real_mul]
      split <;> simp
    refine ⟨_, _, fr 0 sA hsA rA, fr 1 sB hsB rB, ?_⟩
    rw [fr 2 sC hsC rC]
    congr 1
    have e1 : ∑ i ∈ Finset.range s.size, f i 2 = a * (∑ i ∈ Finset.range s.size, f i 0) + b * ∑ i ∈ Finset.range s.size, f i 1 := by
      rw [Finset.mul_sum, Finset.mul_sum, ← Finset.sum_add_distrib]
      exact Finset.sum_congr rfl fun i hi => hf i (Finset.mem_range.1 hi)
    have e2 : ∑ i ∈ Finset.range s.size, f i 2 * (v.mem i).volume = a * (∑ i ∈ Finset.range s.size, f i 0 * (v.mem i).volume) +
        b * ∑ i ∈ Finset.range s.size, f i 1 * (v.mem i).volume := by
      rw [Finset.mul_sum, Finset.mul_sum, ← Finset.sum_add_distrib]
      exact Finset.sum_congr rfl fun i hi => by rw [hf i (Finset.mem_range.1 hi)]; ring
    split
    · rw [e1]; ring
    · rw [e2]; ring

theorem Setups.combined {pol : Policy} {s sA sB : Shell ℝ} {a b : ℝ} {x : Fin 3 → MRes (Shell ℝ) Bool}
    (h : Setups (fun f => f 2 = a * f 0 + b * f 1) s x) {bA bB : Bool} (hA : x 0 = .ok sA bA) (hB : x 1 = .ok sB bB)
    (hacc : ∀ i < s.size, sA.out.accessible pol i = true) : bB = bA ∧ ∃ sC, x 2 = .ok sC bA ∧ Combined pol a b sA sB sC := by
  rcases h with ⟨base, v, f, c, b', hb, hf, h⟩ | ⟨base, v, f, c, w, h⟩ | ⟨w, h⟩
  · have h0 := h 0
    have h1 := h 1
    rw [hA] at h0
    rw [hB] at h1
    cases h0
    cases h1
    exact ⟨rfl, _, h 2, Paint.combined hb hf hacc rfl rfl rfl⟩
  · rw [h] at hA; cases hA
  · rw [h] at hA; cases hA

theorem accessible {pol : Policy} {s : Shell ℝ} {o : Nat → Output ℝ} (h : Reports pol s o) : ∀ i < s.size, s.out.accessible pol i = true := by
  intro i hi
  have := Shell.reports_iff.1 h i hi
  unfold RecVec.read at this
  by_contra hc
  rw [if_neg hc] at this
  cases this

end Paint

/-- **C139, linear, meshes**: if the frictions of the faces are a combination of those of two meshes of the same shape, so are the reported
frictions of the ribs and of the tyre.  In particular they are multiplied by `k` if those of the faces are. -/
theorem C139_linear {pol : Policy} {s sA sB : Shell ℝ} (hs : s.Reachable pol) (m : Mesh ℝ) (φ ψ : Nat → ℝ) (a b : ℝ) (pose : Affine ℝ)
    (method : String) {bA bB : Bool} (hA : s.setupMesh pol (paintMesh m φ) pose method = .ok sA bA)
    (hB : s.setupMesh pol (paintMesh m ψ) pose method = .ok sB bB) :
    ∃ sC, s.setupMesh pol (paintMesh m fun j => a * φ j + b * ψ j) pose method = .ok sC bA ∧ Combined pol a b sA sB sC := by
  have h := Paint.setupMesh (Paint.combination a b) hs m ![φ, ψ, fun j => a * φ j + b * ψ j] (fun j => rfl) pose method
  obtain ⟨o, ho, -⟩ := Spec.SetUp.reports hs (.inl ⟨_, hA⟩)
  have hsz : sA.size = s.size := by
    unfold Shell.size
    rw [(Shell.setupMesh_rel (.inl ⟨bA, hA⟩)).ribs]
  exact (h.combined (pol := pol) hA hB (by rw [← hsz]; exact Paint.accessible ho)).2

/-- **C139, linear, flat grounds**. -/
theorem C139_linear_flat {pol : Policy} {s sA sB : Shell ℝ} (g : Flat ℝ) (f f' a b : ℝ) (pose : Affine ℝ)
    (method : String) {bA bB : Bool} (hA : s.setupFlat pol (paintFlat g f) pose method = .ok sA bA)
    (hB : s.setupFlat pol (paintFlat g f') pose method = .ok sB bB) :
    ∃ sC, s.setupFlat pol (paintFlat g (a * f + b * f')) pose method = .ok sC bA ∧ Combined pol a b sA sB sC := by
  have h := Paint.setupFlat (Paint.combination a b) pol s g ![f, f', a * f + b * f'] rfl pose method
  obtain ⟨flags, recs, hr, -⟩ := C38_flat_flag_partial pol s sA _ pose method bA hA
  refine (h.combined (pol := pol) hA hB fun i hi => ?_).2
  obtain ⟨r, -, -, e⟩ := hr i hi
  unfold RecVec.read at e
  by_contra hc
  rw [if_neg hc] at e
  cases e

/-- **C139, monotone**: rougher faces never give a smaller friction: for the ribs, and for the tyre, at a rigid pose, with either method, if
the contacts of the geometric method have a volume (see C36). -/
theorem C139_monotone_partial {pol : Policy} {s sA sB : Shell ℝ} (hs : s.Reachable pol) (hn : 1 ≤ s.size) (m : Mesh ℝ) {φ ψ : Nat → ℝ}
    (hle : ∀ j, φ j ≤ ψ j) {pose : Affine ℝ} (hp : IsRigid pose) {method : String} {bA bB : Bool}
    (hA : s.setupMesh pol (paintMesh m φ) pose method = .ok sA bA) (hB : s.setupMesh pol (paintMesh m ψ) pose method = .ok sB bB)
    (hvol : method = "geometric" → ∀ i < s.size, ∀ o, sA.out.read pol i = .ok o → ShowsContact o → o.volume ≠ 0) :
    bA = bB ∧ (∀ i < s.size, ∃ fA fB, sA.contactFrictionAt pol i = .ok fA ∧ sB.contactFrictionAt pol i = .ok fB ∧ fA ≤ fB) ∧
      ∃ fA fB, sA.contactFriction pol = .ok fA ∧ sB.contactFriction pol = .ok fB ∧ fA ≤ fB := by
  obtain ⟨sC, hC, hcomb⟩ := C139_linear hs m φ ψ (-1) 1 pose method hA hB
  have size : ∀ {M : Mesh ℝ} {S : Shell ℝ} {b : Bool}, s.setupMesh pol M pose method = .ok S b → S.size = s.size := by
    intro M S b h
    unfold Shell.size
    rw [(Shell.setupMesh_rel (.inl ⟨b, h⟩)).ribs]
  have hsame : ∀ φ ψ : Nat → ℝ, ∀ {S S' : Shell ℝ} {b b' : Bool}, s.setupMesh pol (paintMesh m φ) pose method = .ok S b →
      s.setupMesh pol (paintMesh m ψ) pose method = .ok S' b' → b = b' ∧ SameTyre S S' := by
    intro φ ψ S S' b b' h h'
    rcases (C139_setup hs pose method).2 m φ ψ with ⟨u, u', fl, e1, e2, e⟩ | ⟨u, u', w, e1, e2, e⟩ | ⟨w, e1, e2⟩
    · rw [h] at e1; rw [h'] at e2; cases e1; cases e2; exact ⟨rfl, e⟩
    · rw [h] at e1; cases e1
    · rw [h] at e1; cases e1
  obtain ⟨oA, rA, kA⟩ := Spec.SetUp.reports hs (.inl ⟨_, hA⟩)
  obtain ⟨oC, rC, kC⟩ := Spec.SetUp.reports hs (.inl ⟨_, hC⟩)
  obtain ⟨-, hAC⟩ := hsame _ _ hA hC
  -- the frictions of the difference
  have hpos : ∀ i < s.size, 0 ≤ (oC i).friction := by
    intro i hi
    obtain ⟨loc, hloc⟩ : ∃ loc, (paintMesh m fun j => -1 * φ j + 1 * ψ j).intersection (s.transform pose).updateBBox.bbox = .ok loc := by
      rcases hI : (paintMesh m fun j => -1 * φ j + 1 * ψ j).intersection (s.transform pose).updateBBox.bbox with loc | w | w
      · exact ⟨loc, rfl⟩
      · rw [Shell.setupMesh] at hC; simp only [hI] at hC; cases hC
      · rw [Shell.setupMesh] at hC; simp only [hI] at hC; cases hC
    have hfr : ∀ t ∈ loc, 0 ≤ t.friction := by
      unfold Mesh.intersection at hloc
      rcases hT : Tree.inter (paintMesh m fun j => -1 * φ j + 1 * ψ j).tree (Tree.build [(s.transform pose).updateBBox.bbox]) false with ps | w | w
      · rw [hT, Res.bind_ok] at hloc
        rcases Paint.lookup m (fun _ : Unit => fun j => -1 * φ j + 1 * ψ j) ps with ⟨L, h1, h2⟩ | ⟨w, h2⟩ | ⟨w, h2⟩
        · rw [h2 ()] at hloc
          cases hloc
          intro t ht
          obtain ⟨p, hp, rfl⟩ := List.mem_map.1 ht
          obtain ⟨j, hj⟩ := h1 p hp
          show 0 ≤ p.2 ()
          rw [hj]
          have := hle j
          linarith
        · rw [h2 ()] at hloc; cases hloc
        · rw [h2 ()] at hloc; cases hloc
      · rw [hT] at hloc; cases hloc
      · rw [hT] at hloc; cases hloc
    obtain ⟨flags, recs, hrec, -⟩ := C38_mesh_flag pol s sC hs _ pose method loc _ hloc hC
    obtain ⟨r, g1, g2, g3⟩ := hrec i hi
    have hoc : recs i = oC i := by
      have := Shell.reports_iff.1 rC i (by rw [size hC]; exact hi)
      rw [g3] at this
      exact Res.ok.inj this
    rw [hoc] at g2
    have hrib : IsRib r := by
      rw [(Shell.setupMesh_rel (.inl ⟨_, hC⟩)).ribs] at g1
      exact hs.isRib r (List.mem_of_getElem? g1)
    dsimp only at g2
    split at g2
    · rw [← (Prod.mk.inj (Res.ok.inj g2)).2]
      simp [Rib.noContact]
    · refine (C25_contact_friction hrib pose method (flags i) (oC i)).2 _ (fun t ht => hfr t (List.mem_of_mem_filter ht)) g2 fun hg hf => ?_
      have hread := Shell.reports_iff.1 rA i (by rw [size hA]; exact hi)
      have e := hAC.records i
      have eA : oA i = sA.out.mem i := by
        unfold RecVec.read at hread
        rw [if_pos (Paint.accessible rA i (by rw [size hA]; exact hi))] at hread
        exact (Res.ok.inj hread).symm
      have eC : oC i = sC.out.mem i := by
        have hread := Shell.reports_iff.1 rC i (by rw [size hC]; exact hi)
        unfold RecVec.read at hread
        rw [if_pos (Paint.accessible rC i (by rw [size hC]; exact hi))] at hread
        exact (Res.ok.inj hread).symm
      have e : oC i = { oA i with friction := (oC i).friction } := by rw [eA, eC]; exact e
      have hsh := hf ▸ g2
      have hshow : ShowsContact (oC i) := Rib.envelopMesh_true hsh
      rw [e]
      refine hvol hg i hi (oA i) hread ?_
      rw [e] at hshow
      exact hshow
  refine ⟨(hsame _ _ hA hB).1, fun i hi => ?_, ?_⟩
  · obtain ⟨fA, fB, h1, h2, h3⟩ := hcomb.ribs i (by rw [size hA]; exact hi)
    refine ⟨fA, fB, h1, h2, ?_⟩
    have := rC.friction i (by rw [size hC]; exact hi)
    rw [h3] at this
    have := Res.ok.inj this
    have := hpos i hi
    linarith
  · obtain ⟨fA, fB, h1, h2, h3⟩ := hcomb.tyre
    refine ⟨fA, fB, h1, h2, ?_⟩
    have hv : ∀ i < sC.size, 0 ≤ (oC i).volume := by
      intro i hi
      obtain ⟨r, -, hr, he⟩ := kC i hi
      exact (he.volume_nonneg hr hp).1
    obtain ⟨w0, -, -, w3, -⟩ := C43_average rC (by rw [size hC]; exact hn) hv
    rw [h3] at w3
    have e := Res.ok.inj w3
    have : 0 ≤ -1 * fA + 1 * fB := by
      rw [e]
      exact Finset.sum_nonneg fun i hi => mul_nonneg (w0 i (Finset.mem_range.1 hi)) (hpos i (by rw [← size hC]; exact Finset.mem_range.1 hi))
    linarith

/-- **C139 is false for the total area**: the same tyre at the same pose on the same plane reports a total contact area of 1 on a ground of
friction 1 and of 2 on a ground of friction 2, since frictions are added up (C41). -/
theorem C139_area_refuted (fresh : Nat → Output ℝ) : ∃ (s sA sB : Shell ℝ), s.Reachable .raw ∧
    s.setupFlat .raw (paintFlat Demo.road 1) (Demo.upright (1 / 2)) "geometric" = .ok sA true ∧
    s.setupFlat .raw (paintFlat Demo.road 2) (Demo.upright (1 / 2)) "geometric" = .ok sB true ∧
    sA.contactArea .raw = .ok 1 ∧ sB.contactArea .raw = .ok 2 ∧ sB.contactAreaAt .raw 0 = sA.contactAreaAt .raw 0 := by
  have heps := real_eps_le_half
  obtain ⟨s, a, h1, -, hab, ha, hac, haR, haw⟩ := Demo.oneRib fresh
  have hreach : s.Reachable .raw := .make h1
  have hsz : s.size = 1 := by simp [Shell.size, hab]
  have key : ∀ f : ℝ, ∃ S o, s.setupFlat .raw (paintFlat Demo.road f) (Demo.upright (1 / 2)) "geometric" = .ok S true ∧ S.size = 1 ∧
      Reports .raw S (fun _ => o) ∧ o.friction = f := by
    intro f
    obtain ⟨S, b, hS⟩ := Shell.setupFlat_total hreach (by omega) (paintFlat Demo.road f) (Demo.upright (1 / 2)) (.inl rfl)
    obtain ⟨flags, recs, hr, hb, -⟩ := C38_flat_flag_partial .raw s S _ _ "geometric" b hS
    have hSs : S.size = 1 := by
      unfold Shell.size
      rw [(Shell.setupFlat_rel (.inl ⟨b, hS⟩)).ribs]
      exact hsz
    obtain ⟨r, g1, g2, g3⟩ := hr 0 (by omega)
    have hra : r = a := by
      rw [(Shell.setupFlat_rel (.inl ⟨b, hS⟩)).ribs] at g1
      have : s.ribs[0]? = some r := g1
      rw [hab] at this
      simpa using this.symm
    subst hra
    have g2 := Rib.envelopFlat_geometric_eq g2
    have k := C91_friction_contact r Demo.road (Demo.upright (1 / 2)) f
    have e : Demo.road.edit (.setFriction f) = paintFlat Demo.road f := rfl
    rw [e, g2, Demo.oneRib_eval ha hac haR (by norm_num) (by norm_num; linarith)] at k
    have k1 : flags 0 = true := k.1
    have hbt : b = true := by rw [hb, hsz]; simpa using k1
    subst hbt
    refine ⟨S, recs 0, hS, hSs, Shell.reports_iff.2 fun i hi => ?_, ?_⟩
    · have : i = 0 := by omega
      subst this
      exact g3
    · have : recs 0 = _ := k.2 rfl
      rw [this]
  obtain ⟨sA, oA, hA, zA, rA, fA⟩ := key 1
  obtain ⟨sB, oB, hB, zB, rB, fB⟩ := key 2
  have ht : SameTyre sA sB := by
    rcases (C139_setup hreach (Demo.upright (1 / 2)) "geometric").1 Demo.road 1 2 with ⟨u, u', fl, e1, e2, e⟩ | ⟨u, u', w, e1, e2, e⟩ | ⟨w, e1, e2⟩
    · rw [hA] at e1; rw [hB] at e2; cases e1; cases e2; exact e
    · rw [hA] at e1; cases e1
    · rw [hA] at e1; cases e1
  refine ⟨s, sA, sB, hreach, hA, hB, ?_, ?_, ((C139_values ht .raw).2.2.2.2.2.2 0).2.2.2.1⟩
  · rw [(C41_total_partial rA).1, zA, fA]; simp [ribSum]
  · rw [(C41_total_partial rB).1, zB, fB]; simp [ribSum]

/-- A mesh, two different paints of it, and a tyre in contact with both: the hypotheses of `C139_linear` and `C139_monotone_partial` can be met. -/
example (fresh : Nat → Output ℝ) : ∃ (s sA sB : Shell ℝ), s.Reachable .raw ∧ s.size = 1 ∧ IsRigid (Demo.upright (1 / 2)) ∧
    (∀ j : Nat, (fun _ => 1 : Nat → ℝ) j ≤ (fun j => 2 + j : Nat → ℝ) j) ∧
    s.setupMesh .raw (paintMesh (Mesh.ofTriangles [Demo.field]) fun _ => 1) (Demo.upright (1 / 2)) "geometric" = .ok sA true ∧
    s.setupMesh .raw (paintMesh (Mesh.ofTriangles [Demo.field]) fun j => 2 + j) (Demo.upright (1 / 2)) "geometric" = .ok sB true ∧
    ∀ i < s.size, ∀ o, sA.out.read .raw i = .ok o → o.volume ≠ 0 := by
  obtain ⟨s, sA, r, o, hs, -, hsz, hA, hr, he, ho⟩ := Demo.oneRib_on_field fresh
  have e : paintMesh (Mesh.ofTriangles [Demo.field]) (fun _ => 1) = Mesh.ofTriangles [Demo.field] := rfl
  rw [← e] at hA
  have hsame := (C139_setup hs (Demo.upright (1 / 2)) "geometric").2 (Mesh.ofTriangles [Demo.field]) (fun _ => 1) fun j => 2 + j
  rw [hA] at hsame
  rcases hsame with ⟨u, u', fl, e1, e2, -⟩ | ⟨u, u', w, e1, -⟩ | ⟨w, e1, -⟩
  · cases e1
    refine ⟨s, _, u', hs, hsz, Demo.upright_rigid _, fun j => ?_, hA, e2, fun i hi o' ho' => ?_⟩
    · have : (0 : ℝ) ≤ j := Nat.cast_nonneg j
      show (1 : ℝ) ≤ 2 + j
      linarith
    · have : i = 0 := by omega
      subst this
      rw [ho] at ho'
      cases ho'
      have hrib : IsRib r := hs.isRib r (by
        have := (Shell.setupMesh_rel (.inl ⟨_, hA⟩)).ribs
        rw [hr] at this
        rw [← show [r] = s.ribs from this]
        simp)
      refine (C36_volume_pos_partial hrib (Demo.upright_rigid (1 / 2)) (fun t ht => ?_) he).1.ne'
      rw [List.mem_singleton.1 ht, Demo.field_plane, Demo.upright_z]
      norm_num
  · cases e1
  · cases e1

end Enve
