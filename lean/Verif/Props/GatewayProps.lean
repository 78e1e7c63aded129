import Verif.Props.ShellProps
import Verif.Props.MexProps
import Verif.Spec.Gateway

/-! # The MATLAB gateways deliver what the C++ members return -/

namespace Enve.Mex
open Scalar MexSpec
variable {α : Type} [Scalar α]

theorem call_eq_answer {env : Env α} {file : File} {h : Heap α} {args : List (Val α)}
    {r : Res (MRes (Heap α) (List (Val α)))} {g : Res (Val α)}
    (hf : mexFunction env file h 1 args = run h r)
    (hg : r = mapR (fun v => .ok h [v]) g) : Mex.call env file h 1 args = answer h g := by
  unfold Mex.call
  rw [hf, hg]
  cases g <;> simp [mapR, run, answer]

theorem call_eq_answerNew {env : Env α} {file : File} {h : Heap α} {args : List (Val α)}
    {r : Res (MRes (Heap α) (List (Val α)))} {g : Res (Obj α)}
    (hf : mexFunction env file h 1 args = run h r)
    (hg : r = mapR (fun o => .ok (h ++ [some o]) [handle h.length]) g) :
    Mex.call env file h 1 args = answerNew h g := by
  unfold Mex.call
  rw [hf, hg]
  cases g <;> simp [mapR, run, answerNew]

omit [Scalar α] in
theorem mapR_bind {β γ δ : Type} (r : Res β) (k : β → Res γ) (f : γ → δ) :
    mapR f (r >>= k) = r >>= fun b => mapR f (k b) := by
  cases r <;> rfl

theorem query0_eq {β : Type} {as : Obj α → Res β} {f : β → Res (Ret α)} {h : Heap α}
    {c : Val α} {a : Nat} {o : Obj α} {b : β} (hl : Live h a o) (hb : as o = .ok b) :
    query0 as f h 1 [c, handle a] = run h (f b >>= fun r => .ok (give h r)) := by
  unfold query0
  rw [getObj_live (args := [c, handle a]) (i := 1) rfl hl hb]
  rfl

theorem queryI_eq {β : Type} {env : Env α} {as : Obj α → Res β} {f : β → Nat → Res (Ret α)}
    {h : Heap α} {c v : Val α} {a : Nat} {o : Obj α} {b : β} (hl : Live h a o) (hb : as o = .ok b) :
    queryI env as f h 1 [c, handle a, v] =
      run h (indexArg env v >>= fun i => f b i >>= fun r => .ok (give h r)) := by
  unfold queryI
  rw [getObj_live (args := [c, handle a, v]) (i := 1) rfl hl hb]
  rfl

theorem queryY_eq {β : Type} {as : Obj α → Res β} {f : β → α → Res (Ret α)}
    {h : Heap α} {c v : Val α} {a : Nat} {o : Obj α} {b : β} (hl : Live h a o) (hb : as o = .ok b) :
    queryY as f h 1 [c, handle a, v] =
      run h (getScalar v >>= fun y => f b y >>= fun r => .ok (give h r)) := by
  unfold queryY
  rw [getObj_live (args := [c, handle a, v]) (i := 1) rfl hl hb]
  rfl

theorem getScalar_number {v : Val α} {y : α} (hv : MexSpec.Number v y) : getScalar v = .ok y := by
  cases hv <;> rfl

omit [Scalar α] in
theorem getInt64_denotes {env : Env α} {v : Val α} {k : Int} (hv : Denotes env v k)
    (h1 : 0 ≤ k) (h2 : k ≤ 2147483647) : getInt64 env v = .ok k := by
  have hw64 : wrap64 k = k := by unfold wrap64; omega
  rcases hv with ⟨c, rfl, hc⟩ | ⟨x, rfl, hi, hx⟩
  · have h256 : c = .i8 → k % 256 = k := by
      rintro rfl; simp only [InRange] at hc; omega
    cases c <;> simp [getInt64, checkScalar, check, Val.isScalar, Val.dims, hw64, h256]
  · simp [getInt64, checkScalar, check, Val.isScalar, Val.dims, hi, hx]

omit [Scalar α] in
/-- Negative numbers are read as they are, except those of the class `int8`. -/
theorem getInt64_negative {env : Env α} {v : Val α} {k : Int} (hv : Denotes env v k)
    (h0 : ∀ n, v ≠ .int .i8 1 1 [n]) (h1 : -2147483648 ≤ k) (h2 : k ≤ 2147483647) : getInt64 env v = .ok k := by
  have hw64 : wrap64 k = k := by unfold wrap64; omega
  rcases hv with ⟨c, rfl, hc⟩ | ⟨x, rfl, hi, hx⟩
  · cases c with
    | i8 => exact absurd rfl (h0 k)
    | _ => simp [getInt64, checkScalar, check, Val.isScalar, Val.dims, hw64]
  · simp [getInt64, checkScalar, check, Val.isScalar, Val.dims, hi, hx]

omit [Scalar α] in
theorem indexArg_denotes {env : Env α} {v : Val α} {k : Int} (hv : Denotes env v k)
    (h1 : 1 ≤ k) (h2 : k ≤ 2147483647) : indexArg env v = .ok (k - 1).toNat := by
  have hw32 : wrap32 k = k := by unfold wrap32; omega
  have hg := getInt64_denotes hv (by omega) h2
  unfold indexArg
  simp only [hg, Res.bind_ok, hw32]
  rw [if_neg (by omega), if_pos h1]

end Enve.Mex

namespace Enve
open Scalar Mex MexSpec
variable {α : Type} [Scalar α]

/-- C86: every query command on a live shell delivers the result of the C++ member it is named
after. -/
theorem C86_shell_partial (env : Env α) (h : Heap α) (a : Nat) (s : Shell α)
    (hl : Live h a (.shell s)) :
    ∀ p ∈ shellValues env,
      Mex.call env .shell h 1 [.chars p.1.toList, handle a] = answer h (p.2 s) := by
  have key : ∀ {c : Val α} {f : Shell α → Res (Ret α)} {g : Res (Val α)}
      (_ : mexFunction env .shell h 1 [c, handle a] = query0 asShell f h 1 [c, handle a])
      (_ : (f s >>= fun r => Res.ok (give h r)) = mapR (fun v => .ok h [v]) g),
      Mex.call env .shell h 1 [c, handle a] = answer h g := by
    intro c f g h1 h2
    exact call_eq_answer (h1.trans (query0_eq hl rfl)) h2
  simp only [shellValues, List.forall_mem_cons]
  refine ⟨key rfl rfl, key rfl rfl, key rfl rfl, key rfl rfl, key rfl rfl, key rfl rfl, key rfl rfl,
    key rfl rfl, key rfl rfl, key rfl rfl, key rfl ?_, key rfl ?_, key rfl ?_, key rfl ?_, key rfl ?_,
    key rfl ?_, key rfl ?_, by simp⟩
  · dsimp only; cases s.contactNormal env.pol <;> rfl
  · dsimp only; cases s.contactDepth env.pol <;> rfl
  · dsimp only; cases s.contactFriction env.pol <;> rfl
  · dsimp only; cases s.contactArea env.pol <;> rfl
  · dsimp only; cases s.contactVolume env.pol <;> rfl
  · dsimp only; cases s.contactPointAffine env.pol <;> rfl
  · dsimp only; cases s.relativeAngles env.pol <;> rfl

/-- C86: rib numbers count from one, in any numeric type. -/
theorem C86_rib (env : Env α) (h : Heap α) (a : Nat) (s : Shell α)
    (hl : Live h a (.shell s)) (v : Val α) (k : Int) (hv : Denotes env v k) (h1 : 1 ≤ k)
    (h2 : k ≤ 2147483647) :
    (∀ p ∈ shellRibValues env, Mex.call env .shell h 1 [.chars p.1.toList, handle a, v] =
      answer h (p.2 s (k - 1).toNat)) ∧
    (∀ p ∈ shellRibPoints env, Mex.call env .shell h 1 [.chars p.1.toList, handle a, v] =
      answerNew h (mapR .point (p.2 s (k - 1).toNat))) := by
  have hi := indexArg_denotes hv h1 h2
  generalize (k - 1).toNat = i at hi
  have key : ∀ {c : Val α} {f : Shell α → Nat → Res (Ret α)} {g : Res (Val α)}
      (_ : mexFunction env .shell h 1 [c, handle a, v] = queryI env asShell f h 1 [c, handle a, v])
      (_ : (f s i >>= fun r => Res.ok (give h r)) = mapR (fun v => .ok h [v]) g),
      Mex.call env .shell h 1 [c, handle a, v] = answer h g := by
    intro c f g h1 h2
    exact call_eq_answer (h1.trans (queryI_eq hl rfl)) (by rw [hi]; exact h2)
  have key' : ∀ {c : Val α} {f : Shell α → Nat → Res (Ret α)} {g : Res (Obj α)}
      (_ : mexFunction env .shell h 1 [c, handle a, v] = queryI env asShell f h 1 [c, handle a, v])
      (_ : (f s i >>= fun r => Res.ok (give h r)) =
        mapR (fun o => .ok (h ++ [some o]) [handle h.length]) g),
      Mex.call env .shell h 1 [c, handle a, v] = answerNew h g := by
    intro c f g h1 h2
    exact call_eq_answerNew (h1.trans (queryI_eq hl rfl)) (by rw [hi]; exact h2)
  simp only [shellRibValues, shellRibPoints, List.forall_mem_cons]
  refine ⟨⟨key rfl ?_, key rfl ?_, key rfl ?_, key rfl ?_, key rfl ?_, key rfl ?_, key rfl ?_,
    key rfl ?_, key rfl ?_, key rfl ?_, by simp⟩, key' rfl ?_, key' rfl ?_, by simp⟩
  · dsimp only; cases s.ribRadius i <;> rfl
  · dsimp only; cases s.ribWidth i <;> rfl
  · dsimp only; cases s.ribAngle i <;> rfl
  · dsimp only; cases s.contactNormalAt env.pol i <;> rfl
  · dsimp only; cases s.contactDepthAt env.pol i <;> rfl
  · dsimp only; cases s.contactFrictionAt env.pol i <;> rfl
  · dsimp only; cases s.contactAreaAt env.pol i <;> rfl
  · dsimp only; cases s.contactVolumeAt env.pol i <;> rfl
  · dsimp only; cases s.contactPointAffineAt env.pol i <;> rfl
  · dsimp only; cases s.relativeAnglesAt env.pol i <;> rfl
  · dsimp only; cases s.ribCenter i <;> rfl
  · dsimp only; cases s.contactPointAt env.pol i <;> rfl

/-- C86: the profile of the tyre, at a position given by any MATLAB scalar, and the averaged contact point. -/
theorem C86_profile (env : Env α) (h : Heap α) (a : Nat) (s : Shell α) (hl : Live h a (.shell s))
    (v : Val α) (y : α) (hv : Number v y) :
    (∀ p ∈ shellProfileValues, Mex.call env .shell h 1 [.chars p.1.toList, handle a, v] =
      answer h (p.2 s y)) ∧
    Mex.call env .shell h 1 [.chars "checkWidthBound".toList, handle a, v] =
      .ok h [scalar (if s.shape.checkWidthBound y then one else zero)] ∧
    Mex.call env .shell h 1 [.chars "contactPointAvg".toList, handle a] =
      answerNew h (mapR .point (s.contactPoint env.pol)) := by
  have key : ∀ {c : Val α} {f : Shell α → α → Res (Ret α)} {g : Res (Val α)}
      (_ : mexFunction env .shell h 1 [c, handle a, v] =
        queryY asShell f h 1 [c, handle a, v])
      (_ : (f s y >>= fun r => Res.ok (give h r)) = mapR (fun v => .ok h [v]) g),
      Mex.call env .shell h 1 [c, handle a, v] = answer h g := by
    intro c f g h1 h2
    exact call_eq_answer (h1.trans (queryY_eq hl rfl)) (by rw [getScalar_number hv]; exact h2)
  simp only [shellProfileValues, List.forall_mem_cons]
  refine ⟨⟨key rfl ?_, key rfl ?_, key rfl ?_, by simp⟩, ?_, ?_⟩
  · dsimp only; cases s.shape.surfaceRadius y <;> rfl
  · dsimp only; cases s.shape.surfaceDerivative y Scalar.eps <;> rfl
  · dsimp only; cases s.shape.surfaceAngle y Scalar.eps <;> rfl
  · exact key (g := .ok _) rfl rfl
  · refine call_eq_answerNew (Eq.trans rfl (query0_eq (as := asShell) hl rfl)) ?_
    dsimp only
    cases s.contactPoint env.pol <;> rfl

/-- C86: flats, their copies and comparison. -/
theorem C86_flat (env : Env α) (h : Heap α) (a b : Nat) (f g : Flat α)
    (hl : Live h a (.flat f)) (hg : Live h b (.flat g)) (x : α) :
    (∀ p ∈ flatValues, Mex.call env .flat h 1 [.chars p.1.toList, handle a] = .ok h [p.2 f]) ∧
    Mex.call env .flat h 1 [.chars "getOrigin".toList, handle a] =
      .ok (h ++ [some (.point f.plane.origin)]) [handle h.length] ∧
    Mex.call env .flat h 1 [.chars "getPlane".toList, handle a] =
      .ok (h ++ [some (.plane f.plane)]) [handle h.length] ∧
    Mex.call env .flat h 1 [.chars "isApprox".toList, handle a, handle b] =
      .ok h [.bool (f.isApprox g Scalar.eps)] ∧
    Mex.call env .flat h 0 [.chars "setFriction".toList, handle a, scalar x] =
      .ok (h.set a (some (.flat ⟨f.plane, x⟩))) [] ∧
    Mex.call env .flat h 0 [.chars "setPlane".toList, handle a, handle b] =
      .ok (h.set a (some (.flat ⟨g.plane, f.friction⟩))) [] ∧
    Mex.call env .flat h 0 [.chars "copy".toList, handle a, handle b] =
      .ok (h.set a (some (.flat (f.copy g)))) [] := by
  have key : ∀ {c : Val α} {q : Flat α → Res (Ret α)} {h' : Heap α} {v : Val α}
      (_ : mexFunction env .flat h 1 [c, handle a] = query0 asFlat q h 1 [c, handle a])
      (_ : (q f >>= fun r => Res.ok (give h r)) = .ok (.ok h' [v])),
      Mex.call env .flat h 1 [c, handle a] = .ok h' [v] := by
    intro c q h' v h1 h2
    unfold Mex.call
    rw [h1, query0_eq (as := asFlat) hl rfl, h2]
    simp [run]
  simp only [flatValues, List.forall_mem_cons]
  refine ⟨⟨key (q := fun f => .ok (.vec f.plane.normal)) rfl rfl,
    key (q := fun f => .ok (.num f.friction)) rfl rfl,
    key (q := fun f => .ok (.bool (f.plane.isDegenerated Scalar.eps))) rfl rfl, by simp⟩,
    key (q := fun f => .ok (.point f.plane.origin)) rfl rfl,
    key (q := fun f => .ok (.plane f.plane)) rfl rfl, ?_, ?_, ?_, ?_⟩
  · refine call_table (f := Mex.flatIsApprox) rfl ?_ (by simp)
    unfold Mex.flatIsApprox; rw [flat1 hl, flat2 hg]; rfl
  · refine call_table (f := flatSetFriction) rfl ?_ (by simp)
    unfold flatSetFriction; rw [flat1 hl]; rfl
  · refine call_table (f := Mex.flatSetPlane) rfl ?_ (by simp)
    unfold Mex.flatSetPlane; rw [flat1 hl, flat2 hg]; rfl
  · refine call_table (f := Mex.flatCopy) rfl ?_ (by simp)
    unfold Mex.flatCopy; rw [flat1 hl, flat2 hg]; rfl

/-- C86: triangles. -/
theorem C86_triangle (env : Env α) (h : Heap α) (a b : Nat) (t u : TriangleGround α)
    (hl : Live h a (.tri t)) (hu : Live h b (.tri u)) :
    (∀ p ∈ triValues, Mex.call env .triangleground h 1 [.chars p.1.toList, handle a] =
      .ok h [p.2 t]) ∧
    (∀ p ∈ triPoints, Mex.call env .triangleground h 1 [.chars p.1.toList, handle a] =
      .ok (h ++ [some (.point (p.2 t))]) [handle h.length]) ∧
    Mex.call env .triangleground h 0 [.chars "copy".toList, handle a, handle b] =
      .ok (h.set a (some (.tri (t.copy u)))) [] := by
  have key : ∀ {c : Val α} {q : TriangleGround α → Res (Ret α)} {h' : Heap α} {v : Val α}
      (_ : mexFunction env .triangleground h 1 [c, handle a] = query0 asTri q h 1 [c, handle a])
      (_ : (q t >>= fun r => Res.ok (give h r)) = .ok (.ok h' [v])),
      Mex.call env .triangleground h 1 [c, handle a] = .ok h' [v] := by
    intro c q h' v h1 h2
    unfold Mex.call
    rw [h1, query0_eq (as := asTri) hl rfl, h2]
    simp [run]
  simp only [triValues, triPoints, List.forall_mem_cons]
  refine ⟨⟨key (q := fun t => .ok (.num (Scalar.ofInt t.id))) rfl rfl,
    key (q := fun t => .ok (.num t.friction)) rfl rfl,
    key (q := fun t => .ok (.vec t.normal)) rfl rfl, by simp⟩,
    ⟨key (q := fun t => .ok (.point t.tri.v0)) rfl rfl,
    key (q := fun t => .ok (.point t.tri.v1)) rfl rfl,
    key (q := fun t => .ok (.point t.tri.v2)) rfl rfl, by simp⟩, ?_⟩
  refine call_table (f := Mex.triCopy) rfl ?_ (by simp)
  unfold Mex.triCopy; rw [tri1 hl, tri2 hu]; rfl

/-- C86: meshes; triangles are counted from one, and the matrix of vertices has one vertex per
column. -/
theorem C86_mesh (env : Env α) (h : Heap α) (a b : Nat) (m n : Mesh α)
    (hl : Live h a (.mesh m)) (hn : Live h b (.mesh n)) (v : Val α) (k : Int)
    (hv : Denotes env v k) (h1 : 1 ≤ k) (h2 : k ≤ 2147483647) (t : TriangleGround α)
    (ht : m.triangles[(k - 1).toNat]? = some t) :
    Mex.call env .mesh h 1 [.chars "size".toList, handle a] = .ok h [int64 m.size] ∧
    Mex.call env .mesh h 1 [.chars "getTrianglegroundVertices".toList, handle a, v] =
      .ok h [mat33 ⟨t.tri.v0, t.tri.v1, t.tri.v2⟩] ∧
    (∃ u : TriangleGround α, u.tri = t.tri ∧ u.friction = t.friction ∧ u.normal = t.normal ∧
      u.bbox = t.bbox ∧
      Mex.call env .mesh h 1 [.chars "getTriangleground".toList, handle a, v] =
        .ok (h ++ [some (.tri u)]) [handle h.length]) ∧
    Mex.call env .mesh h 0 [.chars "copy".toList, handle a, handle b] =
      .ok (h.set a (some (.mesh (m.copy n)))) [] := by
  have hi := indexArg_denotes hv h1 h2
  generalize (k - 1).toNat = i at hi ht
  have hc : copiedTriangle m i = .ok (TriangleGround.default.copy t) := by
    simp [copiedTriangle, Mesh.ptrTriangleground, ht]
  have key : ∀ {c : Val α} {f : Mesh α → Nat → Res (Ret α)} {g : Res (Val α)}
      (_ : mexFunction env .mesh h 1 [c, handle a, v] = queryI env asMesh f h 1 [c, handle a, v])
      (_ : (f m i >>= fun r => Res.ok (give h r)) = mapR (fun v => .ok h [v]) g),
      Mex.call env .mesh h 1 [c, handle a, v] = answer h g := by
    intro c f g h1 h2
    exact call_eq_answer (h1.trans (queryI_eq hl rfl)) (by rw [hi]; exact h2)
  have key' : ∀ {c : Val α} {f : Mesh α → Nat → Res (Ret α)} {g : Res (Obj α)}
      (_ : mexFunction env .mesh h 1 [c, handle a, v] = queryI env asMesh f h 1 [c, handle a, v])
      (_ : (f m i >>= fun r => Res.ok (give h r)) =
        mapR (fun o => .ok (h ++ [some o]) [handle h.length]) g),
      Mex.call env .mesh h 1 [c, handle a, v] = answerNew h g := by
    intro c f g h1 h2
    exact call_eq_answerNew (h1.trans (queryI_eq hl rfl)) (by rw [hi]; exact h2)
  have key0 : ∀ {c : Val α} {f : Mesh α → Res (Ret α)} {g : Res (Val α)}
      (_ : mexFunction env .mesh h 1 [c, handle a] = query0 asMesh f h 1 [c, handle a])
      (_ : (f m >>= fun r => Res.ok (give h r)) = mapR (fun v => .ok h [v]) g),
      Mex.call env .mesh h 1 [c, handle a] = answer h g := by
    intro c f g h1 h2
    exact call_eq_answer (h1.trans (query0_eq hl rfl)) h2
  refine ⟨key0 (g := .ok _) (f := fun m => .ok (.int64 m.size)) rfl rfl, key (g := .ok _)
      (f := fun m i => do return .mat33 (vertexData (← copiedTriangle m i).tri)) rfl ?_,
    ⟨TriangleGround.default.copy t, rfl, rfl, rfl, rfl, key' (g := .ok _)
      (f := fun m i => do return .tri (← copiedTriangle m i)) rfl ?_⟩, ?_⟩
  · simp only [Res.bind_ok, hc]; rfl
  · simp only [Res.bind_ok, hc]; rfl
  · refine call_table (f := Mex.meshCopy) rfl ?_ (by simp)
    unfold Mex.meshCopy; rw [mesh1 hl, mesh2 hn]; rfl

/-- C86: `new` builds what the constructor builds, or reports its error and makes nothing. -/
theorem C86_new (env : Env α) (h : Heap α) :
    (∀ (v : Val α) (mu : α) (o n : V3 α), Number v mu →
      Mex.call env .flat h 1 [.chars "new".toList, v, vec31 o, vec31 n] =
        answerNew h (mapR .flat (Flat.make mu o n))) ∧
    (∀ (v : Val α) (k : Int) (mu : α) (p q r : V3 α), Denotes env v k →
      0 ≤ k ∨ (-2147483648 ≤ k ∧ ∀ n, v ≠ .int .i8 1 1 [n]) → k ≤ 2147483647 →
      Mex.call env .triangleground h 1
          [.chars "new".toList, v, scalar mu, vec31 p, vec31 q, vec31 r] =
        answerNew h (mapR .tri (TriangleGround.make k mu p q r))) ∧
    (∀ (v : Val α) (k : Int) (rx mx ry my ly : α), Denotes env v k → 0 ≤ k → k ≤ 2147483647 →
      Mex.call env .shell h 1 [.chars "new".toList, v, scalar rx, scalar mx, scalar ry, scalar my,
          scalar ly] =
        answerNew h (mapR .shell (Shell.make env.fresh k.toNat rx mx ry my ly))) ∧
    Mex.call env .mesh h 1 [.chars "new".toList] =
      .ok (h ++ [some (.mesh Mesh.empty)]) [handle h.length] := by
  refine ⟨fun v mu o n hv => ?_, fun v k mu p q r hv h1 h2 => ?_, fun v k rx mx ry my ly hv h1 h2 => ?_, ?_⟩
  · refine call_eq_answerNew (r := getScalar v >>= fun mu => Flat.make mu o n >>= fun f => .ok (alloc h (.flat f))) rfl ?_
    rw [getScalar_number hv, Res.bind_ok]
    cases Flat.make mu o n <;> rfl
  · have hk : getInt64 env v = .ok k :=
      h1.elim (fun h => getInt64_denotes hv h h2) fun h => getInt64_negative hv h.2 h.1 h2
    have hid : idArg k = .ok k := by unfold idArg; rw [if_pos (by omega)]
    refine call_eq_answerNew (r := getInt64 env v >>= fun k => idArg k >>= fun id =>
      TriangleGround.make id mu p q r >>= fun t => .ok (alloc h (.tri t))) rfl ?_
    rw [hk, Res.bind_ok, hid, Res.bind_ok]
    cases TriangleGround.make k mu p q r <;> rfl
  · have hk := getInt64_denotes hv h1 h2
    have hw : wrap32 k = k := by unfold wrap32; omega
    refine call_eq_answerNew (r := getInt64 env v >>= fun k =>
      shellOfInt env (wrap32 k) rx mx ry my ly >>= fun t => .ok (alloc h (.shell t))) rfl ?_
    rw [hk, Res.bind_ok, hw]
    unfold shellOfInt
    rw [if_pos h1]
    cases Shell.make env.fresh k.toNat rx mx ry my ly <;> rfl
  · exact call_table (f := meshNew env) rfl rfl (by simp)

/-- C86: `resize` is the C++ member. -/
theorem C86_resize (env : Env α) (h : Heap α) (a : Nat) (s : Shell α) (hl : Live h a (.shell s))
    (v : Val α) (k : Int) (hv : Denotes env v k) (h1 : 0 ≤ k) (h2 : k ≤ 2147483647) :
    Mex.call env .shell h 0 [.chars "resize".toList, handle a, v] =
      match s.resize env.fresh k.toNat with
      | .ok s' _ => .ok (h.set a (some (.shell s'))) []
      | .throw s' e => .throw (h.set a (some (.shell s'))) e
      | .ub w => .ub w := by
  have hk := getInt64_denotes hv h1 h2
  have hw : wrap32 k = k := by unfold wrap32; omega
  have hc : mexFunction env .shell h 0 [.chars "resize".toList, handle a, v] =
      shellResize env h 0 [.chars "resize".toList, handle a, v] := rfl
  unfold Mex.call
  rw [hc]
  have he : shellResize env h 0 [.chars "resize".toList, handle a, v] =
      run h (getInt64 env v >>= fun n =>
        .ok (storeShell h a (fun _ => []) (resizeInt env s (wrap32 n)))) := by
    unfold shellResize; rw [shell1 hl]; rfl
  rw [he, hk, Res.bind_ok, hw]
  unfold resizeInt
  rw [if_pos h1]
  cases s.resize env.fresh k.toNat <;> rfl

/-- C86 fails for `rotation`: it returns the transpose of the rotation. -/
theorem C86_rotation_refuted (env : Env α) (h : Heap α) (a : Nat) (s : Shell α)
    (hl : Live h a (.shell s)) (he : env.rotation s.pose.linear = s.pose.linear) :
    Mex.call env .shell h 1 [.chars "rotation".toList, handle a] =
      .ok h [mat33 (M3.transpose s.pose.linear)] := by
  refine call_eq_answer (g := .ok _) (Eq.trans rfl (query0_eq (as := asShell) (f := fun s =>
    .ok (.mat33 (rotationData (env.rotation s.pose.linear)))) hl rfl)) ?_
  rw [he]
  rfl

/-- C86 fails for `checkTransformation`: the command never returns. -/
theorem C86_checkTransformation_refuted (env : Env α) (h : Heap α) (n : Nat) (args : List (Val α))
    (hn : nameOf args = some "checkTransformation") :
    ∀ h' outs, Mex.call env .shell h n args ≠ .ok h' outs := by
  intro h' outs hc
  match args, hn with
  | .chars c :: rest, hn =>
    simp only [nameOf, Option.some.injEq] at hn
    have hf : mexFunction env .shell h n (.chars c :: rest) =
        shellCheckTransformation h n (.chars c :: rest) := by
      unfold mexFunction
      simp only [hn]
      rfl
    unfold Mex.call at hc
    rw [hf] at hc
    generalize hx : shellCheckTransformation h n (.chars c :: rest) = m at hc
    cases m with
    | throw => cases hc
    | ub => cases hc
    | ok h1 outs1 =>
      unfold shellCheckTransformation at hx
      rcases arity_cases [2] 1 (.chars c :: rest) n with ha | ⟨e, ha⟩
      · have hlen := (arity_ok ha).1
        have hnone : arg (.chars c :: rest) 2 = .ub "prhs[k] out of range" := by
          unfold arg
          simp only [List.length_cons, List.mem_singleton] at hlen
          rw [List.getElem?_eq_none (by simp only [List.length_cons]; omega)]
        rw [ha, hnone] at hx
        simp only [Res.bind_ok] at hx
        cases hg : getObj asShell h (.chars c :: rest) 1 <;> rw [hg] at hx <;> simp [run] at hx
      · rw [ha] at hx
        simp [run] at hx

/-- C86 fails for `load`: the command wants one output and assigns none, so every call ends in an
error; the file may have been loaded nevertheless. -/
theorem C86_load_refuted (env : Env α) (h : Heap α) (n : Nat) (args : List (Val α))
    (hn : nameOf args = some "load") :
    ∀ h' outs, Mex.call env .mesh h n args ≠ .ok h' outs := by
  intro h' outs hc
  match args, hn with
  | .chars c :: rest, hn =>
    simp only [nameOf, Option.some.injEq] at hn
    have hf : mexFunction env .mesh h n (.chars c :: rest) = meshLoad env h n (.chars c :: rest) := by
      unfold mexFunction
      simp only [hn]
      rfl
    unfold Mex.call at hc
    rw [hf] at hc
    generalize hx : meshLoad env h n (.chars c :: rest) = m at hc
    cases m with
    | throw => cases hc
    | ub => cases hc
    | ok h1 outs1 =>
      unfold meshLoad at hx
      rcases arity_cases [3, 4] 1 (.chars c :: rest) n with ha | ⟨e, ha⟩
      · have hn1 := (arity_ok ha).2
        have ho : outs1 = [] := by
          generalize hr : (arity [3, 4] 1 (.chars c :: rest) n >>= fun _ => _) = r at hx
          cases r with
          | throw e => simp [run] at hx
          | ub e => simp [run] at hx
          | ok m =>
            simp only [run] at hx
            subst hx
            simp only [Res.bind_eq_ok] at hr
            obtain ⟨_, _, ⟨a, f⟩, ho, _, _, _, _, _, _, e⟩ := hr
            have hs : ∀ r, storeMesh h a r = .ok h1 outs1 → outs1 = [] := by
              intro r hr; cases r <;> simp [storeMesh] at hr; exact hr.2
            simp only at e
            split at e
            · split at e
              · simp only [Res.pure_eq, Res.ok.injEq, MRes.ok.injEq] at e; exact e.2.symm
              · simp only [Res.pure_eq, Res.ok.injEq] at e; exact hs _ e
            · split at e
              · simp only [Res.pure_eq, Res.ok.injEq, MRes.ok.injEq] at e; exact e.2.symm
              · simp only [Res.bind_eq_ok, Res.pure_eq, Res.ok.injEq] at e
                obtain ⟨_, _, _, _, e⟩ := e
                exact hs _ e
        subst ho; subst hn1
        simp at hc
      · rw [ha] at hx
        simp [run] at hx

/-- C86 fails for negative numbers of type `int8`, which are read as unsigned: `-1` names rib 255. -/
theorem C86_int8_refuted (env : Env α) (h : Heap α) (a : Nat) (s : Shell α)
    (hl : Live h a (.shell s)) :
    Mex.call env .shell h 1 [.chars "ribRadius".toList, handle a, .int .i8 1 1 [-1]] =
      answer h (mapR scalar (s.ribRadius 254)) := by
  refine call_eq_answer (Eq.trans rfl (queryI_eq (as := asShell) (f := fun s i => do
    return .num (← s.ribRadius i)) hl rfl)) ?_
  have : indexArg env (.int .i8 1 1 [-1] : Val α) = .ok 254 := rfl
  rw [this]
  dsimp only [Res.bind_ok]
  cases s.ribRadius 254 <;> rfl

/-- C86 fails for `setPlane`: the handle `getPlane` returns is refused. -/
theorem C86_setPlane_refuted (env : Env α) (h : Heap α) (a b : Nat) (f g : Flat α)
    (ha : Live h a (.flat f)) (hb : Live h b (.flat g)) (hr : h.length < 18446744073709551616) :
    ∃ h', Mex.call env .flat h 1 [.chars "getPlane".toList, handle b] = .ok h' [handle h.length] ∧
      Rejects (Mex.call env .flat h' 0 [.chars "setPlane".toList, handle a, handle h.length]) h' := by
  have halt : a < h.length := (List.getElem?_eq_some_iff.1 ha).1
  refine ⟨h ++ [some (.plane g.plane)], (C86_flat env h b b g g hb hb zero).2.2.1, ?_⟩
  refine C84_second_partial env ⟨.flat, 0, [.chars "setPlane".toList, handle a, handle h.length]⟩
    ?_ _ "setPlane" a (.flat f) (handle h.length) .flat rfl rfl ?_ rfl rfl rfl
    (.inr ⟨h.length, .plane g.plane, rfl, by simp [Live], by simp [kindOf]⟩)
  · intro v hv
    simp only [List.mem_cons, List.not_mem_nil, or_false] at hv
    rcases hv with rfl | rfl | rfl
    · trivial
    · simp [MexSpec.Proper, handle, InRange]; omega
    · simp [MexSpec.Proper, handle, InRange]; omega
  · unfold Live; rw [List.getElem?_append_left halt]; exact ha

/-! ## The hypotheses are met -/

/-- A tyre with five ribs behind handle 0, a triangle as a mesh behind handle 1, and the number three
in two types. -/
example (env : Env ℝ) (t : TriangleGround ℝ) (h3 : env.integral 3 = true) (h3' : env.toInt64 3 = some 3) :
    ∃ (h : Heap ℝ) (s : Shell ℝ), Live h 0 (.shell s) ∧ s.size = 5 ∧
      Live h 1 (.mesh ⟨[t, t, t], [], Tree.empty⟩) ∧
      ([t, t, t] : List (TriangleGround ℝ))[((3 : Int) - 1).toNat]? = some t ∧
      Denotes env (.int .u8 1 1 [3]) 3 ∧ Denotes env (scalar 3) 3 := by
  obtain ⟨s, _, h2, _⟩ := C04_construct env.fresh 5 (by norm_num) 1 2 1 2 1 ⟨by norm_num, by norm_num,
    by norm_num, by norm_num, by norm_num, by norm_num⟩
  exact ⟨[some (.shell s), some (.mesh ⟨[t, t, t], [], Tree.empty⟩)], s, rfl, h2, rfl, rfl,
    .inl ⟨.u8, rfl, by simp [InRange]⟩, .inr ⟨3, rfl, h3, h3'⟩⟩

end Enve
