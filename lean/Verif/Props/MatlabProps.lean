import Verif.Base.Special
import Verif.Props.GatewayProps
import Verif.Model.Matlab

/-! # The MATLAB classes -/

namespace Enve.Matlab
open Scalar Mex MexSpec
variable {α : Type} [Scalar α]

theorem unknown_call {env : Env α} {file : File} {h : Heap α} {n : Nat} {c : List Char}
    {rest : List (Val α)} (hl : (table env file).lookup (String.ofList c) = none) :
    Mex.call env file h n (.chars c :: rest) = .throw h "map::at" := by
  unfold Mex.call mexFunction
  simp only [hl]

end Enve.Matlab

namespace Enve
open Scalar Mex MexSpec Matlab
variable {α : Type} [Scalar α]

/-- C87 fails: an `enve_flat` cannot be copied.  The method refuses flats, and a mesh given instead is
refused by the gateway. -/
theorem C87_copy_refuted (env : Env α) (this other : Inst α) (h : Heap α) :
    (other.type = "flat" → Rejects (Matlab.flatCopy env this other h) h) ∧
    (∀ a b f m, this.handle = handle a → Live h a (.flat f) → other = ⟨"mesh", handle b⟩ →
      Live h b (.mesh m) → Rejects (Matlab.flatCopy env this other h) h) := by
  refine ⟨fun ht => ?_, fun a b f m ht hf ho hm => ?_⟩
  · unfold Matlab.flatCopy
    rw [if_neg (by rw [ht]; decide)]
    exact ⟨_, rfl⟩
  · subst ho
    unfold Matlab.flatCopy method
    rw [if_pos rfl, ht]
    refine rejects_call ⟨"Handle not valid.", ?_⟩
    show Mex.flatCopy h 0 _ = _
    unfold Mex.flatCopy
    have h2 : getObj asFlat h [Val.chars "copy".toList, handle a, handle b] 2 =
        .throw "Handle not valid." := by
      unfold getObj arg
      have hd : deref h b = .ok (.mesh m) := by unfold deref; rw [show h[b]? = _ from hm]
      simp [handleOf, handle, hd, asFlat]
    rw [flat1 hf, h2]
    rfl

/-- C87 fails: `setVertex1`, `setVertex2`, `setVertex3` and `surfaceWidthBound` call commands that do
not exist. -/
theorem C87_unknown_refuted (env : Env α) (this other : Inst α) (y : Val α) (h : Heap α) :
    (∀ n ∈ ["1", "2", "3"], Rejects (Matlab.setVertex env n this other h) h) ∧
    Rejects (Matlab.surfaceWidthBound env this y h) h := by
  have key : ∀ (file : File) (c : String) (rest : List (Val α)) (n : Nat),
      (table env file).lookup c = none →
      Rejects (Mex.call env file h n (.chars c.toList :: rest)) h := by
    intro file c rest n hl
    exact ⟨_, unknown_call (by simpa using hl)⟩
  simp only [List.forall_mem_cons]
  refine ⟨⟨?_, ?_, ?_, by simp⟩, ?_⟩
  · exact key .triangleground "setVertex1" [this.handle, other.handle] 0 rfl
  · exact key .triangleground "setVertex2" [this.handle, other.handle] 0 rfl
  · exact key .triangleground "setVertex3" [this.handle, other.handle] 0 rfl
  · exact key .shell "surfaceWidthBound" [this.handle, y] 1 rfl

/-- C87: `setPlane` gives the flat the origin and the normal of the plane and keeps its friction. -/
theorem C87_setPlane (env : Env α) (this : Inst α) (a : Nat) (f : Flat α) (o n : V3 α) (h : Heap α)
    (ht : this.handle = handle a) (hf : Live h a (.flat f)) :
    Matlab.flatSetPlane env this o n h =
      .ok (h.set a (some (.flat ⟨⟨o, n⟩, f.friction⟩))) [] := by
  have halt : a < h.length := (List.getElem?_eq_some_iff.1 hf).1
  have h1 := ((C85_vector_partial env h a zero).1 f o hf).1
  have h2 := ((C85_vector_partial env (h.set a (some (.flat ⟨⟨o, f.plane.normal⟩, f.friction⟩)))
    a zero).1 ⟨⟨o, f.plane.normal⟩, f.friction⟩ n (by simp [Live, halt])).2
  unfold Matlab.flatSetPlane method
  rw [ht]
  rw [show Mex.call env .flat h 0 (.chars "setOrigin".toList :: handle a :: [.dbl 3 1 [o.x, o.y, o.z]])
    = _ from h1]
  simp only [andThen]
  rw [show Mex.call env .flat _ 0 (.chars "setNormal".toList :: handle a :: [.dbl 3 1 [n.x, n.y, n.z]])
    = _ from h2]
  simp

/-- C87: copying an `enve_mesh` gives it the triangles of the other and keeps its own search tree, copying an `enve_triangleground`
gives it the vertices, friction, normal and box of the other and keeps its identifier, and `isApprox` of an `enve_flat` is that of
the flat; an instance of another class is refused and nothing is changed. -/
theorem C87_copy (env : Env α) (this other : Inst α) (h : Heap α) :
    (∀ a b m n, this.handle = handle a → Live h a (.mesh m) → other = ⟨"mesh", handle b⟩ → Live h b (.mesh n) →
      Matlab.meshCopy env this other h = .ok (h.set a (some (.mesh ⟨n.triangles, m.bboxes, m.tree⟩))) []) ∧
    (∀ a b t u, this.handle = handle a → Live h a (.tri t) → other = ⟨"triangleground", handle b⟩ → Live h b (.tri u) →
      Matlab.triCopy env this other h =
        .ok (h.set a (some (.tri ⟨u.tri, t.id, u.friction, u.normal, u.bbox⟩))) []) ∧
    (∀ a b f g, this.handle = handle a → Live h a (.flat f) → other = ⟨"flat", handle b⟩ → Live h b (.flat g) →
      Matlab.flatIsApprox env this other h = .ok h [.bool (f.isApprox g Scalar.eps)]) ∧
    (other.type ≠ "mesh" → Rejects (Matlab.meshCopy env this other h) h) ∧
    (other.type ≠ "triangleground" → Rejects (Matlab.triCopy env this other h) h) ∧
    (other.type ≠ "flat" → Rejects (Matlab.flatIsApprox env this other h) h) := by
  refine ⟨fun a b m n ht hm ho hn => ?_, fun a b t u ht hm ho hn => ?_, fun a b f g ht hm ho hn => ?_,
    fun ht => ?_, fun ht => ?_, fun ht => ?_⟩
  · subst ho
    unfold Matlab.meshCopy method
    rw [if_pos rfl, ht]
    refine call_table (f := Mex.meshCopy) rfl ?_ (by simp)
    unfold Mex.meshCopy; rw [mesh1 hm, mesh2 hn]; rfl
  · subst ho
    unfold Matlab.triCopy method
    rw [if_pos rfl, ht]
    refine call_table (f := Mex.triCopy) rfl ?_ (by simp)
    unfold Mex.triCopy; rw [tri1 hm, tri2 hn]; rfl
  · subst ho
    unfold Matlab.flatIsApprox method
    rw [if_pos rfl, ht]
    refine call_table (f := Mex.flatIsApprox) rfl ?_ (by simp)
    unfold Mex.flatIsApprox; rw [flat1 hm, flat2 hn]; rfl
  · unfold Matlab.meshCopy; rw [if_neg ht]; exact ⟨_, rfl⟩
  · unfold Matlab.triCopy; rw [if_neg ht]; exact ⟨_, rfl⟩
  · unfold Matlab.flatIsApprox; rw [if_neg ht]; exact ⟨_, rfl⟩

/-- The values of a `Vec` query: one per rib, in order. -/
theorem Matlab.vecLoop_values (env : Env α) (cmd : String) (this : Inst α) (h : Heap α)
    (f : Nat → Val α) (k i : Nat)
    (hc : ∀ j, i ≤ j → j < i + k →
      method env .shell cmd 1 this [.int .i64 1 1 [(j : Int)]] h = .ok h [f j]) :
    vecLoop env cmd this k i h = .ok h ((List.range' i k).map f) := by
  induction k generalizing i with
  | zero => rfl
  | succ k ih =>
    unfold vecLoop
    rw [hc i (Nat.le_refl _) (by omega)]
    simp only [andThen]
    rw [ih (i + 1) (fun j h1 h2 => hc j (by omega) (by omega))]
    simp [List.range'_succ]

/-- C87: `contactDepthVec` and its companions list, rib after rib, what the C++ member returns for
each rib. -/
theorem C87_vec (env : Env α) (this : Inst α) (a : Nat) (s : Shell α) (h : Heap α)
    (ht : this.handle = handle a) (hs : Live h a (.shell s)) (hn : s.size ≤ 2147483647)
    (p : String × (Shell α → Nat → Res (Val α))) (hp : p ∈ shellRibValues env) (f : Nat → Val α)
    (hf : ∀ i, i < s.size → p.2 s i = .ok (f i)) :
    Matlab.contactVec env p.1 this h = .ok h ((List.range s.size).map f) := by
  have hsize := (C86_shell_partial env h a s hs) ("size", fun s => .ok (int64 s.size))
    (by simp [shellValues])
  unfold contactVec method
  rw [ht]
  rw [show Mex.call env .shell h 1 (.chars "size".toList :: handle a :: []) = _ from hsize]
  simp only [answer, andThen, int64]
  rw [vecLoop_values env p.1 this h (fun j => f (j - 1)) _ _ ?_]
  · congr 1
    rw [List.range'_eq_map_range]
    simp [Function.comp_def]
  · intro j h1 h2
    unfold method
    rw [ht]
    have := (C86_rib env h a s hs (.int .i64 1 1 [(j : Int)]) j (.inl ⟨.i64, rfl, by
      simp only [InRange]; simp at h2; omega⟩) (by omega) (by simp at h2; omega)).1 p hp
    rw [show Mex.call env .shell h 1 (.chars p.1.toList :: handle a :: [.int .i64 1 1 [(j : Int)]])
      = _ from this]
    have hj : ((j : Int) - 1).toNat = j - 1 := by omega
    rw [hj, hf (j - 1) (by simp at h2; omega)]
    rfl

/-- C87 fails: an `enve_flat` cannot be made without parameters, although the class offers it: the
gateway passes NaN to a constructor that refuses it. -/
theorem C87_default_refuted (env : Env α) (h : Heap α)
    (hn : (zero <=. (Scalar.nan : α)) = false) : Rejects (construct env .flat h []) h := by
  unfold construct
  have hm : Flat.make (Scalar.nan : α) V3.nan V3.nan =
      .throw "negative friction coefficient scaling factor detected." := by
    simp [Flat.make, Res.assert, hn]
  have hc : Mex.call env .flat h 1 [.chars "new".toList] =
      .throw h "negative friction coefficient scaling factor detected." := by
    unfold Mex.call
    have : mexFunction env .flat h 1 [.chars "new".toList] =
        run h (Flat.make Scalar.nan V3.nan V3.nan >>= fun f => .ok (alloc h (.flat f))) := rfl
    rw [this, hm]
    rfl
  rw [hc]
  exact ⟨_, rfl⟩

/-- C87 fails: an `enve_mesh` made from an existing OBJ file without a friction is silently empty, and
a contact query with it is undefined behaviour. -/
theorem C87_obj_refuted (env : Env α) (h : Heap α) (name : List Char)
    (hf : (env.file (name ++ ".obj".toList)).isSome) :
    Matlab.newMesh env h (name ++ ".obj".toList) [] =
      .ok (h ++ [some (.mesh Mesh.empty)]) ⟨"mesh", handle h.length⟩ ∧
    ∀ (a : Nat) (s : Shell α) (pose : Affine α) (m : List Char), Live h a (.shell s) →
      ∃ w, Mex.call env .shell (h ++ [some (.mesh Mesh.empty)]) 1 [.chars "setupMesh".toList,
        handle a, handle h.length, pose44 pose, .chars m] = .ub w := by
  have hl : ¬ (name ++ ".obj".toList).length < 4 := by simp
  have hd : (name ++ ".obj".toList).drop ((name ++ ".obj".toList).length - 4) = ".obj".toList := by
    simp
  constructor
  · unfold newMesh
    rw [if_neg hl, if_neg (by intro hN; rw [Option.isNone_iff_eq_none] at hN; rw [hN] at hf; cases hf), hd]
    have hm : meshArgs (α := α) ".obj".toList [] = .ok () := rfl
    rw [hm]
    simp only
    unfold construct
    have hx : Mesh.extension (name ++ ".obj".toList) = .ok ".obj".toList := by
      unfold Mesh.extension; rw [if_neg hl, hd]
    have hc : Mex.call env .mesh h 1 [.chars "new".toList, .chars (name ++ ".obj".toList)] =
        .ok (h ++ [some (.mesh Mesh.empty)]) [handle h.length] := by
      refine call_table (f := meshNew env) rfl ?_ (by simp)
      have : meshNew env h 1 [.chars "new".toList, .chars (name ++ ".obj".toList)] =
          run h (Mesh.extension (name ++ ".obj".toList) >>= fun e =>
            if e ≠ ".rdf".toList then .ok (alloc h (.mesh Mesh.empty))
            else do
              let m ← loaded (Mesh.loadRdf env.np Mesh.empty (name ++ ".obj".toList)
                (env.file (name ++ ".obj".toList)) Affine.id)
              return alloc h (.mesh m)) := rfl
      rw [this, hx, Res.bind_ok, if_pos (by decide)]
      rfl
    rw [hc]
    rfl
  · intro a s pose m hs
    have halt : a < h.length := (List.getElem?_eq_some_iff.1 hs).1
    have hs' : Live (h ++ [some (.mesh Mesh.empty)]) a (.shell s) := by
      unfold Live; rw [List.getElem?_append_left halt]; exact hs
    have hg : Live (h ++ [some (.mesh Mesh.empty)]) h.length (.mesh (Mesh.empty : Mesh α)) := by
      simp [Live]
    have hq := setupMesh_eq env hs' hg (.chars "setupMesh".toList) (pose44 pose) m
    have hub : ∃ w, s.setupMesh env.pol Mesh.empty pose (String.ofList m) = .ub w := by
      refine ⟨"null m_ptrbox dereferenced", ?_⟩
      have : ∀ t : Tree α, Tree.inter Tree.empty t false = .ub "null m_ptrbox dereferenced" := by
        intro t; rw [Tree.empty, Tree.inter]; simp
      simp [Shell.setupMesh, Mesh.intersection, Mesh.empty, this]
    obtain ⟨w, hw⟩ := hub
    refine ⟨w, ?_⟩
    unfold Mex.call
    rw [show mexFunction env .shell _ 1 [.chars "setupMesh".toList, handle a, handle h.length,
      pose44 pose, .chars m] = _ from hq]
    rw [show poseArg (pose44 pose) = .ok pose from rfl, Res.bind_ok, hw]
    rfl

/-- What the constructor of `enve_mesh` does when the file of a road loads into the mesh `m` (or fails with the message `e`). -/
def MexSpec.Loads (r : MRes (Heap α) (Inst α)) (h : Heap α) (l : MRes (Mesh α) Bool) : Prop :=
  (∀ m b, l = .ok m b → r = .ok (h ++ [some (.mesh m)]) ⟨"mesh", handle h.length⟩) ∧
  (∀ m e, l = .throw m e → Rejects r h)

theorem Matlab.newMesh_eq {env : Env α} {h : Heap α} {path : List Char} {args : List (Val α)} (hf : (env.file path).isSome)
    (hl : ¬ path.length < 4) (ha : meshArgs (path.drop (path.length - 4)) args = .ok ()) :
    Matlab.newMesh env h path args = construct env .mesh h (.chars path :: args) := by
  unfold newMesh
  rw [if_neg hl, if_neg (by intro hN; rw [Option.isNone_iff_eq_none] at hN; rw [hN] at hf; cases hf), ha]

theorem Matlab.construct_mesh {env : Env α} {h : Heap α} {args : List (Val α)} {l : MRes (Mesh α) Bool}
    (he : meshNew env h 1 (.chars "new".toList :: args) = run h (loaded l >>= fun m => .ok (alloc h (.mesh m)))) :
    Loads (construct env .mesh h args) h l := by
  constructor
  · rintro m b rfl
    have hc : Mex.call env .mesh h 1 (.chars "new".toList :: args) = .ok (h ++ [some (.mesh m)]) [handle h.length] :=
      call_table (f := meshNew env) rfl he (by simp)
    unfold construct
    rw [hc]
    rfl
  · rintro m e rfl
    refine ⟨e, ?_⟩
    unfold construct Mex.call
    rw [show mexFunction env .mesh h 1 (.chars "new".toList :: args) = _ from he]
    rfl

/-- **C87.** The constructor of `enve_mesh` loads an existing file: an RDF file, as it is or with a pose, and an OBJ file with a friction, as
it is or with a pose.  If the file cannot be loaded the constructor fails. -/
theorem C87_mesh_new (env : Env α) (h : Heap α) (name : List Char) (pose : Affine α) (f : α) :
    (∀ path, path = name ++ ".rdf".toList → (env.file path).isSome →
      Loads (Matlab.newMesh env h path []) h (Mesh.loadRdf env.np Mesh.empty path (env.file path) Affine.id) ∧
      Loads (Matlab.newMesh env h path [pose44 pose]) h (Mesh.loadRdf env.np Mesh.empty path (env.file path) pose)) ∧
    (∀ path, path = name ++ ".obj".toList → (env.file path).isSome →
      Loads (Matlab.newMesh env h path [.dbl 1 1 [f]]) h (Mesh.loadObj env.np Mesh.empty path (env.file path) f Affine.id) ∧
      Loads (Matlab.newMesh env h path [.dbl 1 1 [f], pose44 pose]) h (Mesh.loadObj env.np Mesh.empty path (env.file path) f pose)) := by
  have hl : ∀ ext : List Char, ext.length = 4 → ¬ (name ++ ext).length < 4 := by intro e he; simp [he]
  have hd : ∀ ext : List Char, ext.length = 4 → (name ++ ext).drop ((name ++ ext).length - 4) = ext := by intro e he; simp [he]
  have hx : ∀ ext : List Char, ext.length = 4 → Mesh.extension (name ++ ext) = .ok ext := by
    intro e he; unfold Mesh.extension; rw [if_neg (hl e he), hd e he]
  constructor
  · rintro path rfl hf
    have h4 : ".rdf".toList.length = 4 := rfl
    constructor
    · rw [newMesh_eq hf (hl _ h4) (by rw [hd _ h4]; rfl)]
      refine construct_mesh ?_
      have : meshNew env h 1 [.chars "new".toList, .chars (name ++ ".rdf".toList)] =
          run h (Mesh.extension (name ++ ".rdf".toList) >>= fun e =>
            if e ≠ ".rdf".toList then .ok (alloc h (.mesh Mesh.empty))
            else do
              let m ← loaded (Mesh.loadRdf env.np Mesh.empty (name ++ ".rdf".toList)
                (env.file (name ++ ".rdf".toList)) Affine.id)
              return alloc h (.mesh m)) := rfl
      rw [this, hx _ h4, Res.bind_ok, if_neg (by simp)]
      rfl
    · rw [newMesh_eq hf (hl _ h4) (by rw [hd _ h4]; rfl)]
      refine construct_mesh ?_
      have : meshNew env h 1 [.chars "new".toList, .chars (name ++ ".rdf".toList), pose44 pose] =
          run h (Mesh.extension (name ++ ".rdf".toList) >>= fun e =>
            if e = ".obj".toList ∧ (pose44 pose).isScalar = true then do
              let f ← getScalar (pose44 pose)
              let m ← loaded (Mesh.loadObj env.np Mesh.empty (name ++ ".rdf".toList) (env.file (name ++ ".rdf".toList)) f Affine.id)
              return alloc h (.mesh m)
            else if e = ".rdf".toList then do
              let pose ← poseArg (pose44 pose)
              let m ← loaded (Mesh.loadRdf env.np Mesh.empty (name ++ ".rdf".toList)
                (env.file (name ++ ".rdf".toList)) pose)
              return alloc h (.mesh m)
            else return alloc h (.mesh Mesh.empty)) := rfl
      rw [this, hx _ h4, Res.bind_ok, if_neg (fun h => absurd h.1 (by decide)), if_pos rfl]
      rfl
  · rintro path rfl hf
    have h4 : ".obj".toList.length = 4 := rfl
    constructor
    · rw [newMesh_eq hf (hl _ h4) (by rw [hd _ h4]; rfl)]
      refine construct_mesh ?_
      have : meshNew env h 1 [.chars "new".toList, .chars (name ++ ".obj".toList), .dbl 1 1 [f]] =
          run h (Mesh.extension (name ++ ".obj".toList) >>= fun e =>
            if e = ".obj".toList ∧ (Val.dbl 1 1 [f]).isScalar = true then do
              let f ← getScalar (.dbl 1 1 [f])
              let m ← loaded (Mesh.loadObj env.np Mesh.empty (name ++ ".obj".toList) (env.file (name ++ ".obj".toList)) f Affine.id)
              return alloc h (.mesh m)
            else if e = ".rdf".toList then do
              let pose ← poseArg (.dbl 1 1 [f])
              let m ← loaded (Mesh.loadRdf env.np Mesh.empty (name ++ ".obj".toList)
                (env.file (name ++ ".obj".toList)) pose)
              return alloc h (.mesh m)
            else return alloc h (.mesh Mesh.empty)) := rfl
      rw [this, hx _ h4, Res.bind_ok, if_pos ⟨rfl, rfl⟩]
      rfl
    · rw [newMesh_eq hf (hl _ h4) (by rw [hd _ h4]; rfl)]
      refine construct_mesh ?_
      have : meshNew env h 1 [.chars "new".toList, .chars (name ++ ".obj".toList), .dbl 1 1 [f], pose44 pose] =
          run h (Mesh.extension (name ++ ".obj".toList) >>= fun e =>
            if e = ".obj".toList ∧ 4 = 4 ∧ 4 = 4 then do
              let pose ← poseArg (pose44 pose)
              let m ← loaded (Mesh.loadObj env.np Mesh.empty (name ++ ".obj".toList)
                (env.file (name ++ ".obj".toList)) f pose)
              return alloc h (.mesh m)
            else return alloc h (.mesh Mesh.empty)) := rfl
      rw [this, hx _ h4, Res.bind_ok, if_pos ⟨rfl, rfl, rfl⟩]
      rfl

/-- **C87.** What the constructor of `enve_mesh` refuses, without creating an object: a missing file, a file name that does not end in `.rdf`
or `.obj`, more than one further argument for an RDF file or more than two for an OBJ file, a friction that is not a scalar, and a pose
that has no side of four elements as its longest. -/
theorem C87_mesh_refuses (env : Env α) (h : Heap α) (path : List Char) (args : List (Val α)) :
    (env.file path = none → Rejects (Matlab.newMesh env h path args) h) ∧
    ((∀ name, path ≠ name ++ ".rdf".toList ∧ path ≠ name ++ ".obj".toList) → Rejects (Matlab.newMesh env h path args) h) ∧
    (∀ name, path = name ++ ".rdf".toList → 1 < args.length → Rejects (Matlab.newMesh env h path args) h) ∧
    (∀ name, path = name ++ ".obj".toList → 2 < args.length ∨ (∃ v rest, args = v :: rest ∧ v.dims ≠ some (1, 1)) ∨
      (∃ v w rest r c, args = v :: w :: rest ∧ w.dims = some (r, c) ∧ (r = 0 ∨ c = 0 ∨ Max.max r c ≠ 4)) →
      Rejects (Matlab.newMesh env h path args) h) := by
  have key : (∃ e, meshArgs (path.drop (path.length - 4)) args = .throw e) → Rejects (Matlab.newMesh env h path args) h := by
    rintro ⟨e, he⟩
    unfold newMesh
    split
    · exact ⟨_, rfl⟩
    · split
      · exact ⟨_, rfl⟩
      · rw [he]; exact ⟨_, rfl⟩
  refine ⟨fun hf => ?_, fun hn => ?_, ?_, ?_⟩
  · unfold newMesh
    split
    · exact ⟨_, rfl⟩
    · rw [hf]; exact ⟨_, rfl⟩
  · refine key ⟨"enve_mesh: not a *.rdf or *.obj file!", ?_⟩
    have hs : path = path.take (path.length - 4) ++ path.drop (path.length - 4) := (List.take_append_drop _ _).symm
    unfold meshArgs
    rw [if_neg, if_neg]
    · intro e; rw [e] at hs; exact (hn _).2 hs
    · intro e; rw [e] at hs; exact (hn _).1 hs
  · rintro name rfl hn
    refine key ?_
    have hd : (name ++ ".rdf".toList).drop ((name ++ ".rdf".toList).length - 4) = ".rdf".toList := by simp
    rw [hd]
    unfold meshArgs
    rw [if_pos rfl]
    match args, hn with
    | [_], h => simp at h
    | _ :: _ :: _, _ => exact ⟨_, rfl⟩
  · rintro name rfl hn
    refine key ?_
    have hd : (name ++ ".obj".toList).drop ((name ++ ".obj".toList).length - 4) = ".obj".toList := by simp
    rw [hd]
    unfold meshArgs
    rw [if_neg (by decide), if_pos rfl]
    match args, hn with
    | [], h => simp at h
    | [v], h =>
      have : v.isScalar = false := by
        rcases h with h | ⟨v', rest, e, h⟩ | ⟨v', w, rest, r, c, e, h⟩
        · simp at h
        · cases e; simp [Val.isScalar, h]
        · cases e
      exact ⟨"enve_mesh: invalid inputs for *.obj file!", by simp [check, this]⟩
    | [v, w], h =>
      have : (v.isScalar && decide (len w = 4)) = false := by
        rcases h with h | ⟨v', rest, e, h⟩ | ⟨v', w', rest, r, c, e, h1, h⟩
        · simp at h
        · cases e; simp [Val.isScalar, h]
        · cases e
          rw [Bool.and_eq_false_iff]
          right
          simp only [len, h1, decide_eq_false_iff_not]
          split
          · omega
          · rename_i hne
            have : r ≠ 0 ∧ c ≠ 0 := by constructor <;> rintro rfl <;> simp at hne
            split <;> omega
      exact ⟨"enve_mesh: invalid inputs for *.obj file!", by simp [check, this]⟩
    | _ :: _ :: _ :: _, _ => exact ⟨_, rfl⟩

/-- **C87 (refuted for a pose of the wrong shape).** The class accepts a column of four numbers in place of the pose of an OBJ file; the
gateway then makes an empty mesh without an error. -/
theorem C87_mesh_pose_refuted (env : Env α) (h : Heap α) (name : List Char) (f a b c d : α)
    (hf : (env.file (name ++ ".obj".toList)).isSome) :
    Matlab.newMesh env h (name ++ ".obj".toList) [.dbl 1 1 [f], .dbl 4 1 [a, b, c, d]] =
      .ok (h ++ [some (.mesh Mesh.empty)]) ⟨"mesh", handle h.length⟩ := by
  have hl : ¬ (name ++ ".obj".toList).length < 4 := by simp
  have hd : (name ++ ".obj".toList).drop ((name ++ ".obj".toList).length - 4) = ".obj".toList := by simp
  have hx : Mesh.extension (name ++ ".obj".toList) = .ok ".obj".toList := by unfold Mesh.extension; rw [if_neg hl, hd]
  rw [newMesh_eq hf hl (by rw [hd]; rfl)]
  refine (construct_mesh (l := .ok Mesh.empty true) ?_).1 _ _ rfl
  have : meshNew env h 1 [.chars "new".toList, .chars (name ++ ".obj".toList), .dbl 1 1 [f], .dbl 4 1 [a, b, c, d]] =
      run h (Mesh.extension (name ++ ".obj".toList) >>= fun e =>
        if e = ".obj".toList ∧ 4 = 4 ∧ 1 = 4 then do
          let pose ← readPose [a, b, c, d]
          let m ← loaded (Mesh.loadObj env.np Mesh.empty (name ++ ".obj".toList)
            (env.file (name ++ ".obj".toList)) f pose)
          return alloc h (.mesh m)
        else return alloc h (.mesh Mesh.empty)) := rfl
  rw [this, hx, Res.bind_ok, if_neg (by decide)]
  rfl

/-- C87 fails: the triangle `getTriangleground` returns has the vertices, normal and friction of the
one asked for but identifier zero. -/
theorem C87_identifier_refuted (env : Env α) (h : Heap α) (this : Inst α) (a : Nat) (m : Mesh α)
    (ht : this.handle = handle a) (hl : Live h a (.mesh m)) (v : Val α) (k : Int)
    (hv : Denotes env v k) (h1 : 1 ≤ k) (h2 : k ≤ 2147483647) (t : TriangleGround α)
    (htri : m.triangles[(k - 1).toNat]? = some t) (hz : (zero <=. (zero : α)) = true) :
    ∃ h' u, Matlab.getTriangleground env this v h = .ok h' ⟨"triangleground", handle h.length⟩ ∧
      Live h' h.length (.tri u) ∧ u.tri = t.tri ∧ u.normal = t.normal ∧ u.friction = t.friction ∧
      u.id = 0 := by
  have halt : a < h.length := (List.getElem?_eq_some_iff.1 hl).1
  obtain ⟨t0, h0, hid⟩ : ∃ t0 : TriangleGround α,
      TriangleGround.make 0 zero V3.nan V3.nan V3.nan = .ok t0 ∧ t0.id = 0 := by
    refine ⟨_, by simp [TriangleGround.make, Res.assert, hz]; rfl, rfl⟩
  have hc : construct env .triangleground h [] =
      .ok (h ++ [some (.tri t0)]) ⟨"triangleground", handle h.length⟩ := by
    unfold construct
    have : Mex.call env .triangleground h 1 [.chars "new".toList] =
        .ok (h ++ [some (.tri t0)]) [handle h.length] := by
      refine call_table (f := triNew env) rfl ?_ (by simp)
      have : triNew env h 1 [.chars "new".toList] =
        run h (TriangleGround.make 0 zero V3.nan V3.nan V3.nan >>= fun t => .ok (alloc h (.tri t))) :=
        rfl
      rw [this, h0]; rfl
    rw [this]; rfl
  have hl' : Live (h ++ [some (.tri t0)]) a (.mesh m) := by
    unfold Live; rw [List.getElem?_append_left halt]; exact hl
  obtain ⟨u, hu1, hu2, hu3, hu4, hu5⟩ := (C86_mesh env _ a a m m hl' hl' v k hv h1 h2 t htri).2.2.1
  have hcopy := (C86_triangle env ((h ++ [some (Obj.tri t0)]) ++ [some (Obj.tri u)]) h.length
    (h ++ [some (Obj.tri t0)]).length t0 u (by simp [Live]) (by simp [Live])).2.2
  refine ⟨((h ++ [some (Obj.tri t0)]) ++ [some (Obj.tri u)]).set h.length
    (some (.tri (t0.copy u))), t0.copy u, ?_, ?_, hu1, hu3, hu2, hid⟩
  · unfold getTriangleground method
    rw [hc, ht]
    simp only [andThen]
    rw [show Mex.call env .mesh _ 1 (.chars "getTriangleground".toList :: handle a :: [v]) = _ from hu5]
    simp only
    rw [show Mex.call env .triangleground _ 0 (.chars "copy".toList :: handle h.length ::
      [handle (h ++ [some (Obj.tri t0)]).length]) = _ from hcopy]
  · simp [Live]

/-! ## The hypotheses are met -/

example : (Scalar.zero <=. (Scalar.nan : XR)) = false := rfl

example : (Scalar.zero <=. (Scalar.zero : ℝ)) = true := by simp

example : (Scalar.zero <=. (Scalar.zero : XR)) = true := by
  simp

end Enve
