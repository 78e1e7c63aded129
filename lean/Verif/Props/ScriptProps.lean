import Verif.Props.SafetyProps
import Verif.Props.GatewayProps
import Verif.Props.SectionProps
import Verif.Props.FlatProps
import Verif.Spec.Script

/-! # Careful scripts do not crash: C88 -/

namespace Enve.Mex
open Scalar MexSpec
variable {α : Type} [Scalar α]

/-- The computation is defined, and its value satisfies `Q`. -/
def Safe {β : Type} (Q : β → Prop) : Res β → Prop
  | .ok b => Q b
  | .throw _ => True
  | .ub _ => False

theorem Safe.bind {β γ : Type} {Q : β → Prop} {R : γ → Prop} {x : Res β} {f : β → Res γ}
    (hx : Safe Q x) (hf : ∀ b, Q b → Safe R (f b)) : Safe R (x >>= f) := by
  cases x with
  | ok b => exact hf b hx
  | throw _ => trivial
  | ub _ => exact hx

theorem safe_of_isOk {β : Type} {x : Res β} (h : x.isOk = true) : Safe (fun _ => True) x := by
  cases x with
  | ok b => trivial
  | throw _ => trivial
  | ub _ => cases h

theorem safe_of_isUb {β : Type} {x : Res β} (h : x.isUb = false) : Safe (fun _ => True) x := by
  cases x with
  | ok b => trivial
  | throw _ => trivial
  | ub _ => cases h

/-- A shell in proper condition: made and changed by its members, at most 200 ribs. -/
def ObjSound : Obj α → Prop
  | .shell s => s.Reachable .raw ∧ s.size ≤ 200
  | _ => True

/-- All live objects are in proper condition. -/
def Sound (h : Heap α) : Prop := ∀ a o, Live h a o → ObjSound o

/-- The call returned or raised an error, and left the objects in proper condition. -/
def Good : MRes (Heap α) (List (Val α)) → Prop
  | .ok h _ => Sound h
  | .throw h _ => Sound h
  | .ub _ => False

theorem good_run {h : Heap α} (hs : Sound h) {x : Res (MRes (Heap α) (List (Val α)))}
    (hx : Safe Good x) : Good (run h x) := by
  cases x with
  | ok r => exact hx
  | throw _ => exact hs
  | ub _ => exact hx

theorem sound_store {h : Heap α} (hs : Sound h) {o : Obj α} (ho : ObjSound o) (a : Nat) :
    Sound (store h a o) := by
  intro b o' hb
  unfold Live store at hb
  rw [List.getElem?_set] at hb
  split at hb
  · split at hb
    · cases hb; exact ho
    · cases hb
  · exact hs b o' hb

theorem sound_delete {h : Heap α} (hs : Sound h) (a : Nat) : Sound (h.set a none) := by
  intro b o' hb
  unfold Live at hb
  rw [List.getElem?_set] at hb
  split at hb
  · split at hb <;> cases hb
  · exact hs b o' hb

theorem sound_append {h : Heap α} (hs : Sound h) {o : Obj α} (ho : ObjSound o) :
    Sound (h ++ [some o]) := by
  intro b o' hb
  unfold Live at hb
  rw [List.getElem?_append] at hb
  split at hb
  · exact hs b o' hb
  · rename_i hlt
    match hk : b - h.length with
    | 0 => rw [hk] at hb; cases hb; exact ho
    | k + 1 => rw [hk] at hb; cases hb

theorem good_alloc {h : Heap α} (hs : Sound h) {o : Obj α} (ho : ObjSound o) : Good (alloc h o) :=
  sound_append hs ho

theorem good_give {h : Heap α} (hs : Sound h) (r : Ret α) : Good (give h r) := by
  cases r with
  | point p => exact good_alloc hs trivial
  | plane p => exact good_alloc hs trivial
  | tri p => exact good_alloc hs trivial
  | _ => exact hs

omit [Scalar α] in
theorem safe_check (b : Bool) (m : String) : Safe (fun _ => b = true) (check b m) := by
  unfold check; cases b <;> simp [Safe]

omit [Scalar α] in
theorem safe_arity (n : List Nat) (k : Nat) (args : List (Val α)) (nout : Nat) :
    Safe (fun _ => True) (arity n k args nout) :=
  (safe_check _ _).bind fun _ _ => by
    unfold check; split <;> trivial

omit [Scalar α] in
theorem safe_obj {β : Type} {as : Obj α → Res β} {k : Kind} (hc : Checks as k) {h : Heap α}
    {args : List (Val α)} {i : Nat} {v : Val α} (hv : args[i]? = some v) (hp : Proper v)
    (hd : ∀ a, v = handle a → ∃ o, Live h a o) :
    Safe (fun p => v = handle p.1 ∧ ∃ o, Live h p.1 o ∧ as o = .ok p.2) (getObj as h args i) := by
  unfold getObj arg
  simp only [hv, Res.bind_ok]
  cases hh : handleOf v with
  | throw e => trivial
  | ub w =>
    exfalso
    unfold handleOf at hh
    split at hh
    · rename_i r c d
      split at hh
      · rename_i hrc
        obtain ⟨h1, -⟩ := hp
        rw [hrc] at h1
        match d, h1 with
        | k :: _, _ => cases hh
      · cases hh
    · cases hh
  | ok a =>
    have ha := handleOf_proper hp hh
    obtain ⟨o, ho⟩ := hd a ha
    have hdr : deref h a = .ok o := by unfold deref; rw [show h[a]? = _ from ho]
    simp only [Res.bind_ok, hdr]
    rcases hc o with ⟨b, hb, -⟩ | ⟨-, he⟩
    · rw [hb]; exact ⟨ha, o, ho, hb⟩
    · rw [he]; trivial

omit [Scalar α] in
theorem safe_vec {v : Val α} (hp : Proper v) (h : IsDouble v 3 1 ∨ Misfit v 3 1) :
    Safe (fun _ => True) (vecArg v) := by
  rcases h with ⟨d, rfl⟩ | h
  · match d, hp with
    | [x, y, z], _ => trivial
  · obtain ⟨e, he⟩ := vecArg_misfit h
    rw [he]; trivial

omit [Scalar α] in
theorem safe_pose {v : Val α} (hp : Proper v) (h : IsDouble v 4 4 ∨ Misfit v 4 4) :
    Safe (fun _ => True) (poseArg v) := by
  rcases h with ⟨d, rfl⟩ | h
  · match d, hp with
    | [_, _, _, _, _, _, _, _, _, _, _, _, _, _, _, _], _ => trivial
  · obtain ⟨e, he⟩ := poseArg_misfit h
    rw [he]; trivial

theorem safe_num {v : Val α} (hp : Proper v) (h : v ≠ .cell 1 1) :
    Safe (fun _ => True) (getScalar v) := by
  refine (safe_check _ _).bind fun _ hs => ?_
  have hs : v.dims = some (1, 1) := by simpa [Val.isScalar] using hs
  match v, hp, h, hs with
  | .dbl r c d, hp, _, hs =>
    simp only [Val.dims, Option.some.injEq, Prod.mk.injEq] at hs
    obtain ⟨rfl, rfl⟩ := hs
    match d, hp with
    | [x], _ => trivial
  | .int cl r c d, hp, _, hs =>
    simp only [Val.dims, Option.some.injEq, Prod.mk.injEq] at hs
    obtain ⟨rfl, rfl⟩ := hs
    match d, hp with
    | [x], _ => trivial
  | .chars c, _, _, hs =>
    match c, hs with
    | [], hs => simp [Val.dims] at hs
    | c :: _, _ => trivial
  | .bool b, _, _, _ => trivial
  | .cell r c, _, h, hs =>
    simp only [Val.dims, Option.some.injEq, Prod.mk.injEq] at hs
    obtain ⟨rfl, rfl⟩ := hs
    exact absurd rfl h
  | .nd, _, _, hs => simp [Val.dims] at hs

/-! ## The members called -/

theorem safe_rdf {np : NumParse α} {m : Mesh α} {path : List Char} {file : Option (List (List Char))}
    {pose : Affine α} (h : ∀ lines, file = some lines → RdfSafe np lines) :
    (Mesh.loadRdf np m path file pose).isUb = false := by
  cases hr : Mesh.loadRdf np m path file pose with
  | ok => rfl
  | throw => rfl
  | ub w =>
    exfalso
    cases file with
    | none =>
      unfold Mesh.loadRdf Mesh.loadWith Mesh.extension at hr
      split at hr
      · cases hr
      · rename_i he; split at he <;> cases he
      · split at hr <;> cases hr
    | some lines =>
      obtain ⟨hc, hs⟩ := h lines rfl
      obtain ⟨pre, l, post, st, e, hr, i, j, k, f, hm, ho⟩ :=
        C22_ub_only_from_dangling_partial np m path lines pose hc w hr
      have := hs pre l post st i j k f e hr hm
      omega

theorem safe_objFile {np : NumParse α} {m : Mesh α} {path : List Char}
    {file : Option (List (List Char))} {pose : Affine α} {f : α} (hf : (zero <=. f) = true)
    (h : ∀ lines, file = some lines → ObjSafe np lines) :
    (Mesh.loadObj np m path file f pose).isUb = false := by
  cases hr : Mesh.loadObj np m path file f pose with
  | ok => rfl
  | throw => rfl
  | ub w =>
    exfalso
    cases file with
    | none =>
      unfold Mesh.loadObj Mesh.loadWith Mesh.extension at hr
      split at hr
      · cases hr
      · rename_i he; split at he <;> cases he
      · split at hr <;> cases hr
    | some lines =>
      obtain ⟨hc, hs, hs'⟩ := h lines rfl
      obtain ⟨pre, l, post, st, e, hr, ⟨i, j, k, hm, ho⟩ | ⟨ws, hw, w, hw1, hw2⟩⟩ :=
        C22_obj_ub_only_from_dangling_partial np m path lines f pose hc hf w hr
      · have := hs pre l post st i j k e hr hm
        omega
      · exact hs' l (by simp [e]) ws hw w hw1 hw2

theorem safe_loaded {h : Heap α} (hs : Sound h) {r : MRes (Mesh α) Bool} (hr : r.isUb = false) :
    Safe Good (loaded r >>= fun m => .ok (alloc h (.mesh m))) := by
  cases r with
  | ok m b => exact good_alloc hs trivial
  | throw => trivial
  | ub => cases hr

theorem good_storeMesh {h : Heap α} (hs : Sound h) (a : Nat) {r : MRes (Mesh α) Bool}
    (hr : r.isUb = false) : Good (storeMesh h a r) := by
  cases r with
  | ok m b => exact sound_store hs (o := .mesh _) trivial a
  | throw => exact sound_store hs (o := .mesh _) trivial a
  | ub => cases hr

theorem safe_surfaceRadius (s : Shape α) (y : α) : Safe (fun _ => True) (s.surfaceRadius y) := by
  unfold Shape.surfaceRadius
  cases s.checkWidthBound y <;> trivial

theorem safe_surfaceDerivative (s : Shape α) (y t : α) :
    Safe (fun _ => True) (s.surfaceDerivative y t) := by
  unfold Shape.surfaceDerivative
  cases s.checkWidthBound y
  · trivial
  · simp only [Res.assert_true, Res.bind_ok]
    split <;> trivial

theorem safe_surfaceAngle (s : Shape α) (y t : α) : Safe (fun _ => True) (s.surfaceAngle y t) :=
  (safe_surfaceDerivative s y t).bind fun _ _ => trivial

theorem safe_assert (b : Bool) (m : String) : Safe (fun _ => True) (Res.assert b m) := by
  unfold Res.assert; split <;> trivial

theorem resizeLoop_length (sh : Shape α) (w : α) (k i : Nat) (y : α) (acc : List (Rib α)) :
    match Shell.resizeLoop sh w k i y acc with
    | .ok ribs _ => ribs.length ≤ acc.length + k
    | .throw ribs _ => ribs.length ≤ acc.length + k
    | .ub _ => False := by
  induction k generalizing i y acc with
  | zero => simp [Shell.resizeLoop]
  | succ k ih =>
    rw [Shell.resizeLoop]
    generalize hr : (do
      let r ← sh.surfaceRadius (y +. w)
      let a ← sh.surfaceAngle (y +. w) Scalar.eps
      Res.assert (zero <. r) "negative rib radius detected."
      Res.assert (r ==. r) "NaN rib radius detected."
      Res.assert (a ==. a) "NaN rib angle detected."
      return Rib.make i r (y +. w) w a : Res (Rib α)) = x
    have hx : Safe (fun _ => True) x := by
      rw [← hr]
      exact (safe_surfaceRadius _ _).bind fun _ _ => (safe_surfaceAngle _ _ _).bind fun _ _ =>
        (safe_assert _ _).bind fun _ _ => (safe_assert _ _).bind fun _ _ =>
        (safe_assert _ _).bind fun _ _ => trivial
    cases x with
    | ok r =>
      have := ih (i + 1) (y +. w) (acc ++ [r])
      dsimp only
      cases hl : Shell.resizeLoop sh w k (i + 1) (y +. w) (acc ++ [r]) <;> rw [hl] at this <;>
        simp at this ⊢ <;> omega
    | throw m => simp
    | ub w => exact hx.elim

theorem resize_cases (fresh : Nat → Output α) (s : Shell α) (n : Nat) :
    ∃ s' : Shell α, s'.size ≤ Max.max n s.size ∧
      (s.resize fresh n = .ok s' () ∨ ∃ e, s.resize fresh n = .throw s' e) := by
  unfold Shell.resize
  by_cases hn : n = 0
  · rw [if_pos hn]
    exact ⟨s, Nat.le_max_right _ _, .inr ⟨_, rfl⟩⟩
  · rw [if_neg hn]
    dsimp only
    have := resizeLoop_length s.shape (two *. s.shape.surfaceMaxWidth /. Scalar.ofNat n) n 0
      ((-. s.shape.surfaceMaxWidth) -.
        (two *. s.shape.surfaceMaxWidth /. Scalar.ofNat n) /. two) []
    revert this
    generalize Shell.resizeLoop s.shape _ n 0 _ [] = x
    intro this
    cases x with
    | ok ribs u =>
      exact ⟨{ s with ribs := ribs, out := s.out.clearReserve fresh, cands := List.replicate n [] }, by
        simp [Shell.size] at this ⊢; omega, .inl rfl⟩
    | throw ribs e =>
      exact ⟨{ s with ribs := ribs, out := s.out.clearReserve fresh, cands := List.replicate n [] }, by
        simp [Shell.size] at this ⊢; omega, .inr ⟨e, rfl⟩⟩
    | ub w => exact this.elim

/-- `resize` to at most 200 ribs. -/
theorem good_resize {h : Heap α} (hs : Sound h) (a : Nat) (fresh : Nat → Output α) {s : Shell α}
    (ho : ObjSound (.shell s)) {n : Nat} (hn : n ≤ 200) :
    Good (storeShell h a (fun _ => []) (s.resize fresh n)) := by
  obtain ⟨s', h1, h2⟩ := resize_cases fresh s n
  have h3 : ObjSound (.shell s') := ⟨.resize ho.1 h2, h1.trans (Nat.max_le.2 ⟨hn, ho.2⟩)⟩
  rcases h2 with h2 | ⟨e, h2⟩ <;> rw [h2]
  · exact sound_store hs h3 a
  · exact sound_store hs h3 a

theorem safe_make (fresh : Nat → Output α) {n : Nat} (hn : n ≤ 200) (rx mx ry my ly : α) :
    Safe (fun s => ObjSound (.shell s)) (Shell.make fresh n rx mx ry my ly) := by
  obtain ⟨s', h1, h2⟩ := resize_cases fresh
    ⟨Affine.id, ⟨rx, mx, ry, my, ly⟩, Box.default, [], RecVec.init fresh, []⟩ n
  have hm : Shell.make fresh n rx mx ry my ly = match Shell.resize fresh
      ⟨Affine.id, ⟨rx, mx, ry, my, ly⟩, Box.default, [], RecVec.init fresh, []⟩ n with
    | .ok s _ => .ok s.updateBBox
    | .throw _ m => .throw m
    | .ub w => .ub w := rfl
  rcases h2 with h2 | ⟨e, h2⟩ <;> rw [h2] at hm
  · have h3 : ObjSound (.shell s'.updateBBox) :=
      ⟨.make hm, h1.trans (Nat.max_le.2 ⟨hn, by simp [Shell.size]⟩)⟩
    rw [hm]; exact h3
  · rw [hm]; trivial

theorem good_setup {h : Heap α} (hs : Sound h) (a : Nat) {s : Shell α} {r : MRes (Shell α) Bool}
    (hr : r.isUb = false) (hn : s.size ≤ 200)
    (hk : ∀ s', (∃ b, r = .ok s' b) ∨ (∃ e, r = .throw s' e) → s'.Reachable .raw ∧ s'.size = s.size) :
    Good (storeShell h a (fun b => [.bool b]) r) := by
  cases r with
  | ok s' b =>
    obtain ⟨h1, h2⟩ := hk s' (.inl ⟨b, rfl⟩)
    exact sound_store hs (o := .shell s') ⟨h1, by omega⟩ a
  | throw s' e =>
    obtain ⟨h1, h2⟩ := hk s' (.inr ⟨e, rfl⟩)
    exact sound_store hs (o := .shell s') ⟨h1, by omega⟩ a
  | ub w => cases hr

/-! ## The commands -/

/-- The inputs after the name, with their kinds. -/
abbrev Inputs (env : Env α) (h : Heap α) (c : Val α) (sig : List Slot) (rest : List (Val α)) : Prop :=
  (∀ v ∈ rest, Proper v) ∧ List.Forall₂ (Fits env h (c :: rest)[1]?) sig rest

theorem inputs_nil {env : Env α} {h : Heap α} {c : Val α} {rest : List (Val α)}
    (hi : Inputs env h c [] rest) : rest = [] := by
  cases hi.2; rfl

theorem inputs_1 {env : Env α} {h : Heap α} {c : Val α} {s : Slot} {rest : List (Val α)}
    (hi : Inputs env h c [s] rest) : ∃ v, rest = [v] ∧ Proper v ∧ Fits env h (some v) s v := by
  obtain ⟨hp, hf⟩ := hi
  cases hf with
  | cons h1 h2 => cases h2; exact ⟨_, rfl, hp _ (by simp), h1⟩

theorem inputs_2 {env : Env α} {h : Heap α} {c : Val α} {s t : Slot} {rest : List (Val α)}
    (hi : Inputs env h c [s, t] rest) : ∃ v w, rest = [v, w] ∧ (Proper v ∧ Proper w) ∧
      Fits env h (some v) s v ∧ Fits env h (some v) t w := by
  obtain ⟨hp, hf⟩ := hi
  match rest, hf with
  | [v, w], .cons h1 (.cons h2 .nil) =>
    exact ⟨v, w, rfl, ⟨hp _ (by simp), hp _ (by simp)⟩, h1, h2⟩

theorem inputs_3 {env : Env α} {h : Heap α} {c : Val α} {s t u : Slot} {rest : List (Val α)}
    (hi : Inputs env h c [s, t, u] rest) : ∃ v w x, rest = [v, w, x] ∧
      (Proper v ∧ Proper w ∧ Proper x) ∧
      Fits env h (some v) s v ∧ Fits env h (some v) t w ∧ Fits env h (some v) u x := by
  obtain ⟨hp, hf⟩ := hi
  match rest, hf with
  | [v, w, x], .cons h1 (.cons h2 (.cons h3 .nil)) =>
    exact ⟨v, w, x, rfl, ⟨hp _ (by simp), hp _ (by simp), hp _ (by simp)⟩, h1, h2, h3⟩

theorem safe_query0 {β : Type} {env : Env α} {as : Obj α → Res β} {k : Kind} (hc : Checks as k)
    {f : β → Res (Ret α)} {h : Heap α} (hs : Sound h) {n : Nat} {c : Val α} {rest : List (Val α)}
    (hi : Inputs env h c [.object] rest)
    (hf : ∀ o b, ObjSound o → as o = .ok b → Safe (fun _ => True) (f b)) :
    Good (query0 as f h n (c :: rest)) := by
  obtain ⟨v, rfl, hp, hd⟩ := inputs_1 hi
  refine good_run hs ((safe_arity _ _ _ _).bind fun _ _ => (safe_obj hc rfl hp hd).bind ?_)
  rintro ⟨a, b⟩ ⟨-, o, ho, hb⟩
  exact (hf o b (hs a o ho) hb).bind fun r _ => good_give hs r

theorem safe_queryI {β : Type} {env : Env α} {as : Obj α → Res β} {k : Kind} (hc : Checks as k)
    {f : β → Nat → Res (Ret α)} {h : Heap α} (hs : Sound h) {n : Nat} {c v w : Val α}
    (hp : Proper v) (hd : Fits env h (some v) .object v)
    (hf : ∀ a o b, v = handle a → Live h a o → as o = .ok b →
      ∃ i, indexArg env w = .ok i ∧ Safe (fun _ => True) (f b i)) :
    Good (queryI env as f h n [c, v, w]) := by
  refine good_run hs ((safe_arity _ _ _ _).bind fun _ _ => (safe_obj hc rfl hp hd).bind ?_)
  rintro ⟨a, b⟩ ⟨ha, o, ho, hb⟩
  obtain ⟨i, h1, h2⟩ := hf a o b ha ho hb
  show Safe Good (indexArg env w >>= fun i => f b i >>= fun r => .ok (give h r))
  rw [h1]
  exact h2.bind fun r _ => good_give hs r

theorem safe_queryY {β : Type} {env : Env α} {as : Obj α → Res β} {k : Kind} (hc : Checks as k)
    {f : β → α → Res (Ret α)} {h : Heap α} (hs : Sound h) {n : Nat} {c : Val α} {rest : List (Val α)}
    (hi : Inputs env h c [.object, .num] rest)
    (hf : ∀ b y, Safe (fun _ => True) (f b y)) : Good (queryY as f h n (c :: rest)) := by
  obtain ⟨v, w, rfl, ⟨hp, hq⟩, hd, hw⟩ := inputs_2 hi
  refine good_run hs ((safe_arity _ _ _ _).bind fun _ _ => (safe_obj hc rfl hp hd).bind ?_)
  rintro ⟨a, b⟩ -
  exact (safe_num hq hw).bind fun y _ => (hf b y).bind fun r _ => good_give hs r

theorem safe_delete {β : Type} {env : Env α} {as : Obj α → Res β} {k : Kind} (hc : Checks as k)
    {h : Heap α} (hs : Sound h) {n : Nat} {c : Val α} {rest : List (Val α)}
    (hi : Inputs env h c [.object] rest) : Good (doDelete as h n (c :: rest)) := by
  obtain ⟨v, rfl, hp, hd⟩ := inputs_1 hi
  refine good_run hs ((safe_arity _ _ _ _).bind fun _ _ => (safe_obj hc rfl hp hd).bind ?_)
  rintro ⟨a, b⟩ -
  exact sound_delete hs a

theorem safe_flatMake (mu : α) (o n : V3 α) : Safe (fun _ => True) (Flat.make mu o n) := by
  unfold Flat.make
  exact (safe_assert _ _).bind fun _ _ => (safe_assert _ _).bind fun _ _ => trivial

theorem safe_triMake (id : Int) (mu : α) (p q r : V3 α) :
    Safe (fun _ => True) (TriangleGround.make id mu p q r) := by
  unfold TriangleGround.make
  exact (safe_assert _ _).bind fun _ _ => trivial

/-- The commands of `mex_flat`. -/
theorem good_flat (env : Env α) {h : Heap α} (hs : Sound h) (n : Nat) (c : Val α)
    (rest : List (Val α)) : ∀ p ∈ flatTable (α := α),
      (∃ sig ∈ signatures .flat p.1, Inputs env h c sig rest) → Good (p.2 h n (c :: rest)) := by
  have two : ∀ {f : Nat × Flat α → Nat × Flat α → MRes (Heap α) (List (Val α))}
      {x y : _} (_ : Inputs env h c [.object, .object] rest) (_ : ∀ p q, Good (f p q)),
      Good (run h (arity x y (c :: rest) n >>= fun _ => getObj asFlat h (c :: rest) 1 >>= fun p =>
        getObj asFlat h (c :: rest) 2 >>= fun q => .ok (f p q))) := by
    intro f x y hi hf
    obtain ⟨v, w, rfl, ⟨hp, hq⟩, hd, he⟩ := inputs_2 hi
    exact good_run hs ((safe_arity _ _ _ _).bind fun _ _ => (safe_obj checks_flat rfl hp hd).bind
      fun p _ => (safe_obj checks_flat rfl hq he).bind fun q _ => hf p q)
  have q0 : ∀ {f : Flat α → Res (Ret α)}, (∀ b, ∃ r, f b = .ok r) →
      (∃ sig ∈ [[Slot.object]], Inputs env h c sig rest) → Good (query0 asFlat f h n (c :: rest)) := by
    rintro f hf ⟨sig, hsig, hi⟩
    simp only [List.mem_cons, List.not_mem_nil, or_false] at hsig
    subst hsig
    refine safe_query0 checks_flat hs hi fun o b _ _ => ?_
    obtain ⟨r, hr⟩ := hf b
    rw [hr]; trivial
  simp only [flatTable, List.forall_mem_cons]
  refine ⟨?_, ?_, q0 fun b => ⟨_, rfl⟩, ?_, q0 fun b => ⟨_, rfl⟩, ?_, q0 fun b => ⟨_, rfl⟩, ?_, ?_,
    q0 fun b => ⟨_, rfl⟩, q0 fun b => ⟨_, rfl⟩, ?_, ?_, by simp⟩ <;>
    rintro ⟨sig, hsig, hi⟩ <;>
    simp [signatures] at hsig
  · rcases hsig with rfl | rfl
    · obtain rfl := inputs_nil hi
      exact good_run hs ((safe_arity _ _ _ _).bind fun _ _ => (safe_flatMake _ _ _).bind fun f _ =>
        good_alloc hs trivial)
    · obtain ⟨v, w, x, rfl, ⟨h1, h2, h3⟩, f1, f2, f3⟩ := inputs_3 hi
      exact good_run hs ((safe_arity _ _ _ _).bind fun _ _ => (safe_num h1 f1).bind fun _ _ =>
        (safe_vec h2 f2).bind fun _ _ => (safe_vec h3 f3).bind fun _ _ =>
        (safe_flatMake _ _ _).bind fun f _ => good_alloc hs trivial)
  · subst hsig; exact safe_delete checks_flat hs hi
  · subst hsig
    obtain ⟨v, w, rfl, ⟨hp, hq⟩, hd, he⟩ := inputs_2 hi
    exact good_run hs ((safe_obj checks_flat rfl hp hd).bind fun p _ => (safe_vec hq he).bind
      fun o _ => sound_store hs (o := .flat _) trivial _)
  · subst hsig
    obtain ⟨v, w, rfl, ⟨hp, hq⟩, hd, he⟩ := inputs_2 hi
    exact good_run hs ((safe_arity _ _ _ _).bind fun _ _ => (safe_obj checks_flat rfl hp hd).bind
      fun p _ => (safe_vec hq he).bind fun o _ => sound_store hs (o := .flat _) trivial _)
  · subst hsig
    exact two hi fun p q => sound_store hs (o := .flat _) trivial _
  · subst hsig
    obtain ⟨v, w, rfl, ⟨hp, hq⟩, hd, he⟩ := inputs_2 hi
    exact good_run hs ((safe_arity _ _ _ _).bind fun _ _ => (safe_obj checks_flat rfl hp hd).bind
      fun p _ => (safe_num hq he).bind fun o _ => sound_store hs (o := .flat _) trivial _)
  · subst hsig
    exact two hi fun p q => good_give hs (.bool _)
  · subst hsig
    exact two hi fun p q => sound_store hs (o := .flat _) trivial _

omit [Scalar α] in
theorem safe_matrix44 {v : Val α} (hp : Proper v) (h : IsDouble v 4 4) :
    ∃ d, matrix v = .ok (4, 4, some d) ∧ ∃ a, readPose (some d) = .ok a := by
  obtain ⟨d, rfl⟩ := h
  match d, hp with
  | [_, _, _, _, _, _, _, _, _, _, _, _, _, _, _, _], _ => exact ⟨_, rfl, _, rfl⟩

theorem safe_extension (path : List Char) :
    Safe (fun e => e.length = 4 ∧ ∃ stem, path = stem ++ e) (Mesh.extension path) := by
  unfold Mesh.extension
  split
  · trivial
  · rename_i h
    refine ⟨by simp; omega, path.take (path.length - 4), (List.take_append_drop _ _).symm⟩

theorem good_meshNew (env : Env α) {h : Heap α} (hs : Sound h) (n : Nat) (c : Val α)
    (rest : List (Val α)) (hi : ∃ sig ∈ signatures .mesh "new", Inputs env h c sig rest) :
    Good (meshNew env h n (c :: rest)) := by
  obtain ⟨sig, hsig, hi⟩ := hi
  simp [signatures] at hsig
  refine good_run hs ((safe_arity _ _ _ _).bind fun _ _ => ?_)
  have he : Safe Good (.ok (alloc h (.mesh Mesh.empty))) := good_alloc hs trivial
  rcases hsig with rfl | rfl | rfl | rfl | rfl
  · obtain rfl := inputs_nil hi
    exact he
  · obtain ⟨v, rfl, hp, path, rfl, hf⟩ := inputs_1 hi
    refine (safe_extension path).bind fun e ⟨_, hx⟩ => ?_
    split
    · exact he
    · rename_i hne
      simp only [ne_eq, not_not] at hne
      subst hne
      exact safe_loaded hs (safe_rdf fun l hl => (hf l hl).1 hx)
  · obtain ⟨v, w, rfl, ⟨hp, hq⟩, ⟨path, rfl, hf⟩, x, rfl, hx⟩ := inputs_2 hi
    refine (safe_extension path).bind fun e ⟨_, hx'⟩ => ?_
    show Safe Good (if _ then _ else _)
    split
    · rename_i hc
      obtain ⟨rfl, -⟩ := hc
      exact safe_loaded hs (safe_objFile hx fun l hl => (hf l hl).2 hx')
    · split
      · trivial
      · exact he
  · obtain ⟨v, w, rfl, ⟨hp, hq⟩, ⟨path, rfl, hf⟩, hw⟩ := inputs_2 hi
    refine (safe_extension path).bind fun e ⟨_, hx'⟩ => ?_
    show Safe Good (if _ then _ else _)
    split
    · rename_i hc
      obtain ⟨d, rfl⟩ := hw
      simp [Val.isScalar, Val.dims] at hc
    · split
      · rename_i hc
        subst hc
        exact (safe_pose hq (.inl hw)).bind fun a _ =>
          safe_loaded hs (safe_rdf fun l hl => (hf l hl).1 hx')
      · exact he
  · obtain ⟨v, w, x, rfl, ⟨hp, hq, hr⟩, ⟨path, rfl, hf⟩, ⟨y, rfl, hy⟩, hw⟩ := inputs_3 hi
    obtain ⟨d, h1, a, h2⟩ := safe_matrix44 hr hw
    show Safe Good (matrix x >>= fun q => _)
    rw [h1]
    refine (safe_extension path).bind fun e ⟨_, hx'⟩ => ?_
    show Safe Good (if _ then _ else _)
    split
    · rename_i hc
      obtain ⟨rfl, -⟩ := hc
      rw [h2]
      exact safe_loaded hs (safe_objFile hy fun l hl => (hf l hl).2 hx')
    · exact he

theorem good_meshLoad (env : Env α) {h : Heap α} (hs : Sound h) (n : Nat) (c : Val α)
    (rest : List (Val α)) (hi : ∃ sig ∈ signatures .mesh "load", Inputs env h c sig rest) :
    Good (meshLoad env h n (c :: rest)) := by
  obtain ⟨sig, hsig, hi⟩ := hi
  simp [signatures] at hsig
  refine good_run hs ((safe_arity _ _ _ _).bind fun _ _ => ?_)
  rcases hsig with rfl | rfl
  · obtain ⟨v, w, rfl, ⟨hp, hq⟩, hd, path, rfl, hf⟩ := inputs_2 hi
    refine (safe_obj checks_mesh rfl hp hd).bind fun p _ => (safe_extension path).bind fun e ⟨_, hx⟩ => ?_
    show Safe Good (if _ then _ else _)
    rw [if_pos (by rfl)]
    split
    · exact hs
    · rename_i hne
      simp only [ne_eq, not_not] at hne
      subst hne
      exact good_storeMesh hs _ (safe_rdf fun l hl => (hf l hl).1 hx)
  · obtain ⟨v, w, x, rfl, ⟨hp, hq, hr⟩, hd, ⟨path, rfl, hf⟩, y, rfl, hy⟩ := inputs_3 hi
    refine (safe_obj checks_mesh rfl hp hd).bind fun p _ => (safe_extension path).bind fun e ⟨_, hx⟩ => ?_
    show Safe Good (if _ then _ else _)
    rw [if_neg (by simp)]
    split
    · exact hs
    · rename_i hne
      simp only [ne_eq, not_not] at hne
      subst hne
      exact good_storeMesh hs _ (safe_objFile hy fun l hl => (hf l hl).2 hx)

theorem safe_triangle {env : Env α} {h : Heap α} {c : Val α} {rest : List (Val α)} (hs : Sound h)
    {n : Nat} {f : TriangleGround α → Ret α} (hi : Inputs env h c [.object, .triangle] rest) :
    Good (queryI env asMesh (fun m i => do return f (← copiedTriangle m i)) h n (c :: rest)) := by
  obtain ⟨v, w, rfl, ⟨hp, hq⟩, hd, k, h1, h2, h3, h4⟩ := inputs_2 hi
  refine safe_queryI checks_mesh hs hp hd fun a o b ha ho hb => ?_
  have hm : o = .mesh b := by cases o <;> simp [asMesh] at hb ⊢; exact hb
  subst hm
  have := h4 a b (by rw [ha]) ho
  refine ⟨_, indexArg_denotes h1 h2 h3, ?_⟩
  unfold copiedTriangle Mesh.ptrTriangleground
  have hlt : (k - 1).toNat < b.triangles.length := by omega
  rw [if_pos (Int.natCast_nonneg _), Int.toNat_natCast, List.getElem?_eq_getElem hlt]
  trivial

/-- The commands of `mex_mesh`. -/
theorem good_mesh (env : Env α) {h : Heap α} (hs : Sound h) (n : Nat) (c : Val α)
    (rest : List (Val α)) : ∀ p ∈ meshTable env,
      (∃ sig ∈ signatures .mesh p.1, Inputs env h c sig rest) → Good (p.2 h n (c :: rest)) := by
  simp only [meshTable, List.forall_mem_cons]
  refine ⟨good_meshNew env hs n c rest, ?_, ?_, ?_, ?_, ?_, good_meshLoad env hs n c rest,
    by simp⟩ <;>
    rintro ⟨sig, hsig, hi⟩ <;> simp [signatures] at hsig <;> subst hsig
  · exact safe_delete checks_mesh hs hi
  · exact safe_triangle hs hi
  · exact safe_triangle hs hi
  · exact safe_query0 checks_mesh hs hi fun o b _ _ => trivial
  · obtain ⟨v, w, rfl, ⟨hp, hq⟩, hd, he⟩ := inputs_2 hi
    exact good_run hs ((safe_arity _ _ _ _).bind fun _ _ => (safe_obj checks_mesh rfl hp hd).bind
      fun p _ => (safe_obj checks_mesh rfl hq he).bind fun q _ =>
      sound_store hs (o := .mesh _) trivial _)

omit [Scalar α] in
theorem safe_int {env : Env α} {v : Val α} {k : Int} (hv : Denotes env v k) (h1 : 0 ≤ k)
    (h2 : k ≤ 2147483647) : Safe (fun i => i = k) (getInt64 env v) := by
  rw [getInt64_denotes hv h1 h2]; rfl

/-- The commands of `mex_triangleground`. -/
theorem good_tri (env : Env α) {h : Heap α} (hs : Sound h) (n : Nat) (c : Val α)
    (rest : List (Val α)) : ∀ p ∈ triTable env,
      (∃ sig ∈ signatures .triangleground p.1, Inputs env h c sig rest) →
        Good (p.2 h n (c :: rest)) := by
  have q0 : ∀ {f : TriangleGround α → Res (Ret α)}, (∀ b, ∃ r, f b = .ok r) →
      (∃ sig ∈ [[Slot.object]], Inputs env h c sig rest) → Good (query0 asTri f h n (c :: rest)) := by
    rintro f hf ⟨sig, hsig, hi⟩
    simp only [List.mem_cons, List.not_mem_nil, or_false] at hsig
    subst hsig
    refine safe_query0 checks_tri hs hi fun o b _ _ => ?_
    obtain ⟨r, hr⟩ := hf b
    rw [hr]; trivial
  simp only [triTable, List.forall_mem_cons]
  refine ⟨?_, ?_, q0 fun b => ⟨_, rfl⟩, q0 fun b => ⟨_, rfl⟩, q0 fun b => ⟨_, rfl⟩,
    q0 fun b => ⟨_, rfl⟩, q0 fun b => ⟨_, rfl⟩, ?_, q0 fun b => ⟨_, rfl⟩, by simp⟩ <;>
    rintro ⟨sig, hsig, hi⟩ <;> simp [signatures] at hsig
  · rcases hsig with rfl | rfl
    · obtain rfl := inputs_nil hi
      exact good_run hs ((safe_arity _ _ _ _).bind fun _ _ => (safe_triMake _ _ _ _ _).bind fun f _ =>
        good_alloc hs trivial)
    · obtain ⟨hp, hf⟩ := hi
      match rest, hf with
      | [v1, v2, v3, v4, v5], .cons ⟨k, h1, h1', h1''⟩ (.cons h2 (.cons h3 (.cons h4 (.cons h5 .nil)))) =>
        refine good_run hs ((safe_arity _ _ _ _).bind fun _ _ => (safe_int h1 h1' h1'').bind fun i e =>
          (safe_num (hp _ (by simp)) h2).bind fun _ _ => (safe_vec (hp _ (by simp)) h3).bind fun _ _ =>
          (safe_vec (hp _ (by simp)) h4).bind fun _ _ => (safe_vec (hp _ (by simp)) h5).bind fun _ _ =>
          ?_)
        subst e
        show Safe Good (idArg i >>= _)
        rw [idArg, if_pos (by omega)]
        exact (safe_triMake _ _ _ _ _).bind fun f _ => good_alloc hs trivial
  · subst hsig; exact safe_delete checks_tri hs hi
  · subst hsig
    obtain ⟨v, w, rfl, ⟨hp, hq⟩, hd, he⟩ := inputs_2 hi
    exact good_run hs ((safe_arity _ _ _ _).bind fun _ _ => (safe_obj checks_tri rfl hp hd).bind
      fun p _ => (safe_obj checks_tri rfl hq he).bind fun q _ =>
      sound_store hs (o := .tri _) trivial _)

omit [Scalar α] in
theorem asShell_ok {o : Obj α} {s : Shell α} (h : asShell o = .ok s) : o = .shell s := by
  cases o <;> simp [asShell] at h ⊢; exact h

omit [Scalar α] in
theorem size_of_ribs {s s' : Shell α} (h : s'.ribs = s.ribs) : s'.size = s.size := by
  rw [Shell.size, h]; rfl

theorem FromFile.loaded {np : NumParse α} {m : Mesh α} (h : FromFile np m) : m.Loaded np := by
  rcases h with ⟨path, file, pose, h⟩ | ⟨path, file, f, pose, h⟩
  · exact .inl ⟨path, file, pose, by simp only [Mesh.ofRdf, h, Mesh.constructed]⟩
  · exact .inr ⟨path, file, f, pose, by simp only [Mesh.ofObj, h, Mesh.constructed]⟩

/-- The commands of `mex_shell` that change something. -/
theorem good_actions (env : Env α) (hpol : env.pol = .raw) {h : Heap α} (hs : Sound h) (n : Nat)
    (c : Val α) (rest : List (Val α)) : ∀ p ∈ shellActions env,
      (∃ sig ∈ signatures .shell p.1, Inputs env h c sig rest) → Good (p.2 h n (c :: rest)) := by
  have sound : ∀ {v : Val α} {p : Nat × Shell α},
      (v = handle p.1 ∧ ∃ o, Live h p.1 o ∧ asShell o = .ok p.2) → ObjSound (.shell p.2) := by
    rintro v p ⟨-, o, ho, hb⟩
    have := hs p.1 o ho
    rwa [asShell_ok hb] at this
  simp only [shellActions, List.forall_mem_cons]
  refine ⟨?_, ?_, ?_, ?_, ?_, ?_, ?_, ?_, ?_, by simp⟩ <;>
    rintro ⟨sig, hsig, hi⟩ <;> simp [signatures] at hsig <;> subst hsig
  · obtain ⟨hp, hf⟩ := hi
    match rest, hf with
    | [v1, v2, v3, v4, v5, v6], .cons ⟨k, h1, h1', h1''⟩ (.cons h2 (.cons h3 (.cons h4
        (.cons h5 (.cons h6 .nil))))) =>
      refine good_run hs ((safe_arity _ _ _ _).bind fun _ _ =>
        (safe_int h1 h1' (by omega)).bind fun i e =>
        (safe_num (hp _ (by simp)) h2).bind fun _ _ => (safe_num (hp _ (by simp)) h3).bind fun _ _ =>
        (safe_num (hp _ (by simp)) h4).bind fun _ _ => (safe_num (hp _ (by simp)) h5).bind fun _ _ =>
        (safe_num (hp _ (by simp)) h6).bind fun _ _ => ?_)
      subst e
      have hw : wrap32 i = i := by unfold wrap32; omega
      rw [hw, shellOfInt, if_pos h1']
      exact (safe_make _ (by omega) _ _ _ _ _).bind fun s hs' => good_alloc hs hs'
  · exact safe_delete checks_shell hs hi
  · obtain ⟨v, w, rfl, ⟨hp, hq⟩, hd, k, h1, h1', h1''⟩ := inputs_2 hi
    refine good_run hs ((safe_arity _ _ _ _).bind fun _ _ => (safe_obj checks_shell rfl hp hd).bind
      fun p hp' => (safe_int h1 h1' (by omega)).bind fun i e => ?_)
    subst e
    have hw : wrap32 i = i := by unfold wrap32; omega
    show Good (storeShell h p.1 (fun _ => []) (resizeInt env p.2 (wrap32 i)))
    rw [hw, resizeInt, if_pos h1']
    exact good_resize hs _ _ (sound hp') (by omega)
  · obtain ⟨v, w, rfl, ⟨hp, hq⟩, hd, hw⟩ := inputs_2 hi
    refine good_run hs ((safe_arity _ _ _ _).bind fun _ _ => (safe_obj checks_shell rfl hp hd).bind
      fun p hp' => (safe_vec hq hw).bind fun v _ => ?_)
    exact sound_store hs (o := .shell _) ⟨.translate _ (sound hp').1, (sound hp').2⟩ _
  · obtain ⟨v, w, x, rfl, ⟨hp, hq, hr⟩, hd, hw, hx⟩ := inputs_3 hi
    refine good_run hs ((safe_arity _ _ _ _).bind fun _ _ => (safe_obj checks_shell rfl hp hd).bind
      fun p hp' => (safe_num hq hw).bind fun a _ => (safe_vec hr hx).bind fun v _ => ?_)
    exact sound_store hs (o := .shell _) ⟨.rotate _ _ (sound hp').1, (sound hp').2⟩ _
  · obtain ⟨v, w, rfl, ⟨hp, hq⟩, hd, hw⟩ := inputs_2 hi
    refine good_run hs ((safe_arity _ _ _ _).bind fun _ _ => (safe_obj checks_shell rfl hp hd).bind
      fun p hp' => (safe_pose hq hw).bind fun a _ => ?_)
    exact sound_store hs (o := .shell (p.2.transform a)) ⟨.transform _ (sound hp').1, (sound hp').2⟩ _
  · obtain ⟨hp, hf⟩ := hi
    match rest, hf with
    | [v1, v2, v3, v4], .cons h1 (.cons h2 (.cons h3 (.cons ⟨t, h4⟩ .nil))) =>
      subst h4
      refine good_run hs ((safe_arity _ _ _ _).bind fun _ _ =>
        (safe_obj checks_shell rfl (hp _ (by simp)) h1).bind fun p hp' =>
        (safe_obj checks_flat rfl (hp _ (by simp)) h2).bind fun q _ =>
        (safe_pose (hp _ (by simp)) h3).bind fun a _ => ?_)
      obtain ⟨k1, k2⟩ := sound hp'
      show Good (storeShell h p.1 (fun b => [.bool b])
        (p.2.setupFlat env.pol q.2 a (String.ofList t)))
      rw [hpol]
      refine good_setup hs _ ((C06_reserved_storage_partial p.2 k1 k2).1 _ _ _) k2 fun s' h' => ⟨?_, ?_⟩
      · rcases h' with ⟨b, h'⟩ | h'
        · exact .setupFlat (b := b) k1 (.inl h')
        · exact .setupFlat (b := true) k1 (.inr h')
      · exact size_of_ribs (Shell.setupFlat_rel h').ribs
  · obtain ⟨hp, hf⟩ := hi
    match rest, hf with
    | [v1, v2, v3, v4], .cons h1 (.cons h2 (.cons h3 (.cons ⟨t, h4⟩ .nil))) =>
      subst h4
      refine good_run hs ((safe_arity _ _ _ _).bind fun _ _ =>
        (safe_obj checks_shell rfl (hp _ (by simp)) h1).bind fun p hp' =>
        (safe_obj checks_mesh rfl (hp _ (by simp)) (fun a e => (h2 a e).imp fun _ h => h.1)).bind
          fun q hq' =>
        (safe_pose (hp _ (by simp)) h3).bind fun a _ => ?_)
      obtain ⟨k1, k2⟩ := sound hp'
      obtain ⟨e, o, ho, hb⟩ := hq'
      obtain ⟨o', ho', hm⟩ := h2 _ e
      have hoo : o' = .mesh q.2 := by
        have : o = o' := by
          have h3 : some (some o) = some (some o') := ho.symm.trans ho'
          cases h3; rfl
        subst this
        cases o <;> simp [asMesh] at hb ⊢; exact hb
      show Good (storeShell h p.1 (fun b => [.bool b])
        (p.2.setupMesh env.pol q.2 a (String.ofList t)))
      rw [hpol]
      refine good_setup hs _ (C06_mesh_setup_partial env.np p.2 k1 k2 _ (FromFile.loaded (hm _ hoo)) _ _) k2
        fun s' h' => ⟨?_, ?_⟩
      · rcases h' with ⟨b, h'⟩ | h'
        · exact .setupMesh (b := b) k1 (.inl h')
        · exact .setupMesh (b := true) k1 (.inr h')
      · exact size_of_ribs (Shell.setupMesh_rel h').ribs

theorem safe_map {β γ : Type} {x : Res β} {f : β → γ} (hx : x.isOk = true) :
    Safe (fun _ => True) (do return f (← x) : Res γ) :=
  (safe_of_isOk hx).bind fun _ _ => trivial

/-- The commands of `mex_shell` without further inputs. -/
theorem good_queries (env : Env α) (hpol : env.pol = .raw) {h : Heap α} (hs : Sound h) (n : Nat)
    (c : Val α) (rest : List (Val α)) : ∀ p ∈ shellQueries env,
      (∃ sig ∈ signatures .shell p.1, Inputs env h c sig rest) →
        Good (query0 asShell p.2 h n (c :: rest)) := by
  have key : ∀ p ∈ shellQueries env, signatures .shell p.1 = [[.object]] := by
    simp [shellQueries, signatures]
  have ok : ∀ p ∈ shellQueries env, ∀ s : Shell α, ObjSound (.shell s) →
      Safe (fun _ => True) (p.2 s) := by
    intro p hp s hs'
    have hq := (C06_reserved_storage_partial s hs'.1 hs'.2).2.2.1
    revert hp p
    simp only [shellQueries, List.forall_mem_cons, hpol]
    exact ⟨trivial, trivial, trivial, trivial, trivial, trivial, trivial, trivial, trivial, trivial,
      trivial, safe_map hq.point, safe_map hq.normal, safe_map hq.depth, safe_map hq.friction,
      safe_map hq.area, safe_map hq.volume, safe_map hq.affine, safe_map hq.angles, by simp⟩
  rintro p hp ⟨sig, hsig, hi⟩
  rw [key p hp] at hsig
  simp only [List.mem_cons, List.not_mem_nil, or_false] at hsig
  subst hsig
  refine safe_query0 checks_shell hs hi fun o b ho hb => ok p hp b ?_
  rwa [asShell_ok hb] at ho

/-- The commands of `mex_shell` with a rib number. -/
theorem good_ribQueries (env : Env α) (hpol : env.pol = .raw) {h : Heap α} (hs : Sound h) (n : Nat)
    (c : Val α) (rest : List (Val α)) : ∀ p ∈ shellRibQueries env,
      (∃ sig ∈ signatures .shell p.1, Inputs env h c sig rest) →
        Good (queryI env asShell p.2 h n (c :: rest)) := by
  have key : ∀ p ∈ shellRibQueries env, signatures .shell p.1 = [[.object, .rib]] := by
    simp [shellRibQueries, signatures]
  have ok : ∀ p ∈ shellRibQueries env, ∀ s : Shell α, ObjSound (.shell s) → ∀ i < s.size,
      Safe (fun _ => True) (p.2 s i) := by
    intro p hp s hs' i hi
    have hq := (C06_reserved_storage_partial s hs'.1 hs'.2).2.2.2 i hi
    have hr : s.ribs[i]? = some s.ribs[i] := List.getElem?_eq_getElem hi
    revert hp p
    simp only [shellRibQueries, List.forall_mem_cons, hpol]
    refine ⟨?_, ?_, ?_, ?_, safe_map hq.point, safe_map hq.normal, safe_map hq.depth,
      safe_map hq.friction, safe_map hq.area, safe_map hq.volume, safe_map hq.affine,
      safe_map hq.angles, by simp⟩
    · simp [Shell.ribRadius, Shell.ribAt, hr, Safe]
    · simp [Shell.ribCenter, Shell.ribAt, hr, Safe]
    · simp [Shell.ribWidth, Shell.ribAt, hr, Safe]
    · simp [Shell.ribAngle, Shell.ribAt, hr, Safe]
  rintro p hp ⟨sig, hsig, hi⟩
  rw [key p hp] at hsig
  simp only [List.mem_cons, List.not_mem_nil, or_false] at hsig
  subst hsig
  obtain ⟨v, w, rfl, ⟨h1, h2⟩, hd, k, k1, k2, k3⟩ := inputs_2 hi
  refine safe_queryI checks_shell hs h1 hd fun a o b ha ho hb => ?_
  have hsd := hs a o ho
  obtain rfl := asShell_ok hb
  have h4 := k3 a b (by rw [ha]) ho
  have h5 : b.size ≤ 200 := hsd.2
  exact ⟨_, indexArg_denotes k1 k2 (by omega), ok p hp b hsd _ (by omega)⟩

/-- The commands of `mex_shell` with a lateral coordinate. -/
theorem good_profileQueries (env : Env α) {h : Heap α} (hs : Sound h) (n : Nat)
    (c : Val α) (rest : List (Val α)) : ∀ p ∈ shellProfileQueries (α := α),
      (∃ sig ∈ signatures .shell p.1, Inputs env h c sig rest) →
        Good (queryY asShell p.2 h n (c :: rest)) := by
  have key : ∀ p ∈ shellProfileQueries (α := α), signatures .shell p.1 = [[.object, .num]] := by
    simp [shellProfileQueries, signatures]
  have ok : ∀ p ∈ shellProfileQueries (α := α), ∀ (s : Shell α) (y : α),
      Safe (fun _ => True) (p.2 s y) := by
    intro p hp s y
    revert hp p
    simp only [shellProfileQueries, List.forall_mem_cons]
    exact ⟨trivial, (safe_surfaceRadius _ _).bind fun _ _ => trivial,
      (safe_surfaceDerivative _ _ _).bind fun _ _ => trivial,
      (safe_surfaceAngle _ _ _).bind fun _ _ => trivial, by simp⟩
  rintro p hp ⟨sig, hsig, hi⟩
  rw [key p hp] at hsig
  simp only [List.mem_cons, List.not_mem_nil, or_false] at hsig
  subst hsig
  exact safe_queryY checks_shell hs hi fun b y => ok p hp b y

theorem good_table (env : Env α) (hpol : env.pol = .raw) {h : Heap α} (hs : Sound h) (n : Nat)
    (c : Val α) (rest : List (Val α)) (file : File) : ∀ p ∈ table env file,
      (∃ sig ∈ signatures file p.1, Inputs env h c sig rest) → Good (p.2 h n (c :: rest)) := by
  cases file with
  | flat => exact good_flat env hs n c rest
  | mesh => exact good_mesh env hs n c rest
  | triangleground => exact good_tri env hs n c rest
  | shell =>
    intro p hp
    simp only [table, shellTable, List.mem_append, List.mem_map] at hp
    rcases hp with ((hp | ⟨e, he, rfl⟩) | ⟨e, he, rfl⟩) | ⟨e, he, rfl⟩
    · exact good_actions env hpol hs n c rest p hp
    · exact good_queries env hpol hs n c rest e he
    · exact good_ribQueries env hpol hs n c rest e he
    · exact good_profileQueries env hs n c rest e he

theorem names_mem (env : Env α) (file : File) : ∀ p ∈ table env file, p.1 ∈ commands file := by
  cases file <;>
    simp [table, flatTable, meshTable, triTable, shellTable, shellActions, shellQueries,
      shellRibQueries, shellProfileQueries, commands, or_imp, forall_and]

theorem good_call (env : Env α) (hpol : env.pol = .raw) {h : Heap α} (hs : Sound h) {c : Call α}
    (hc : Careful env h c) : Good (call env c.file h c.nout c.args) := by
  have key : Good (mexFunction env c.file h c.nout c.args) := by
    obtain ⟨hp, hc⟩ := hc
    unfold mexFunction
    split
    · exact hs
    · rename_i n rest e
      split
      · rename_i f hf
        obtain ⟨sig, h1, h2⟩ := hc (String.ofList n) (by rw [e]; rfl)
          (names_mem env c.file _ (mem_of_lookup hf))
        rw [e] at h2 ⊢
        exact good_table env hpol hs _ _ rest c.file _ (mem_of_lookup hf)
          ⟨sig, h1, fun v hv => hp v (by rw [e]; exact List.mem_cons_of_mem _ hv), h2⟩
      · exact hs
    · exact hs
  unfold call
  cases hm : mexFunction env c.file h c.nout c.args with
  | ok h' outs => rw [hm] at key; dsimp only; split <;> exact key
  | throw h' e => rw [hm] at key; exact key
  | ub w => rw [hm] at key; exact key

theorem good_leaves {r : MRes (Heap α) (List (Val α))} (h : Good r) : ∃ h', Leaves r h' ∧ Sound h' := by
  cases r with
  | ok h' v => exact ⟨h', .inl ⟨v, rfl⟩, h⟩
  | throw h' e => exact ⟨h', .inr ⟨e, rfl⟩, h⟩
  | ub w => exact h.elim

theorem session_of_sound (env : Env α) (hpol : env.pol = .raw) (cs : List (Call α)) :
    ∀ h : Heap α, Sound h → CarefulScript env h cs → ∃ h', Session env h cs h' := by
  induction cs with
  | nil => exact fun h _ _ => ⟨h, .nil h⟩
  | cons c cs ih =>
    rintro h hs ⟨hc, hcs⟩
    obtain ⟨h', hl, hs'⟩ := good_leaves (good_call env hpol hs hc)
    obtain ⟨h'', hh⟩ := ih h' hs' (hcs h' hl)
    exact ⟨h'', .cons hl hh⟩

end Enve.Mex

namespace Enve
open Scalar Mex MexSpec
variable {α : Type} [Scalar α]

/-- C88, in any arithmetic, for records in reserved storage: a careful script of any length, starting
without objects, runs to its end - no call has undefined behaviour, whatever the sequence of calls and
whatever errors they raise.  Missing: `C88_standard_refuted`. -/
theorem C88_careful_script_partial (env : Env α) (hpol : env.pol = .raw) (cs : List (Call α))
    (hcs : CarefulScript env [] cs) : ∃ h', Session env [] cs h' :=
  session_of_sound env hpol cs [] (fun _ _ h => by cases h) hcs

theorem careful_of {env : Env α} {h : Heap α} {c : Call α} {n : String} {sig : List Slot}
    (hn : nameOf c.args = some n) (hs : sig ∈ signatures c.file n) (hp : c.Proper)
    (hf : List.Forall₂ (Fits env h c.args[1]?) sig c.args.tail) : Careful env h c := by
  refine ⟨hp, fun s hs' _ => ?_⟩
  obtain rfl : n = s := by rw [hn] at hs'; exact Option.some.inj hs'
  exact ⟨sig, hs, hf⟩

/-- The calls `enve.shell`, `enve.ground.flat`, `setupFlat`, `contactDepthRib` and `delete`. -/
noncomputable def Demo.tyreScript : List (Call ℝ) := [
  ⟨.shell, 1, [.chars "new".toList, int64 1, scalar 1, scalar 2, scalar 2, scalar 2, scalar 1]⟩,
  ⟨.flat, 1, [.chars "new".toList, scalar 1, vec31 ⟨0, 0, 0⟩, vec31 ⟨0, 0, 1⟩]⟩,
  ⟨.shell, 1, [.chars "setupFlat".toList, handle 0, handle 1, pose44 Affine.id,
    .chars "geometric".toList]⟩,
  ⟨.shell, 1, [.chars "contactDepthRib".toList, handle 0, int64 1]⟩,
  ⟨.shell, 0, [.chars "delete".toList, handle 0]⟩,
  ⟨.shell, 1, [.chars "contactDepthRib".toList, scalar 0, int64 1]⟩]

theorem Demo.denotes_one {β : Type} (env : Env β) : Denotes env (int64 1) 1 :=
  .inl ⟨.i64, rfl, by simp [InRange]⟩

theorem Leaves.of_ok {σ β : Type} {s s' : σ} {v : β} {r : MRes σ β} (h : Leaves r s')
    (hr : r = .ok s v) : s' = s := by
  subst hr
  rcases h with ⟨w, h⟩ | ⟨e, h⟩ <;> cases h
  rfl

theorem Demo.tyreScript_careful (env : Env ℝ) :
    CarefulScript env [] Demo.tyreScript := by
  obtain ⟨s, a, hs, -, hr, -⟩ := Demo.oneRib env.fresh
  have hsz : s.size = 1 := by rw [Shell.size, hr]; rfl
  have hreach : s.Reachable .raw := .make hs
  have d1 := Demo.denotes_one env
  have c1 : Mex.call env .shell [] 1 [.chars "new".toList, int64 1, scalar 1, scalar 2, scalar 2,
      scalar 2, scalar 1] = .ok [some (.shell s)] [handle 0] := by
    rw [(C86_new env []).2.2.1 _ 1 1 2 2 2 1 d1 (by norm_num) (by norm_num),
      show (1 : Int).toNat = 1 from rfl, hs]
    rfl
  have c2 : Mex.call env .flat [some (.shell s)] 1 [.chars "new".toList, scalar 1, vec31 ⟨0, 0, 0⟩,
      vec31 ⟨0, 0, 1⟩] = .ok [some (.shell s), some (.flat Demo.road)] [handle 1] := by
    rw [(C86_new env _).1 (scalar 1) 1 _ _ (.double 1), Demo.road_make]
    rfl
  have c3 : ∀ h', Leaves (Mex.call env .shell [some (.shell s), some (.flat Demo.road)] 1
      [.chars "setupFlat".toList, handle 0, handle 1, pose44 Affine.id, .chars "geometric".toList]) h' →
      ∃ s' : Shell ℝ, s'.size = 1 ∧ h' = [some (.shell s'), some (.flat Demo.road)] := by
    intro h' hl
    have e : Mex.mexFunction env .shell [some (.shell s), some (.flat Demo.road)] 1
        [.chars "setupFlat".toList, handle 0, handle 1, pose44 Affine.id, .chars "geometric".toList] =
        storeShell [some (.shell s), some (.flat Demo.road)] 0 (fun b => [.bool b])
          (s.setupFlat env.pol Demo.road Affine.id "geometric") := rfl
    unfold Mex.call at hl
    rw [e] at hl
    cases hset : s.setupFlat env.pol Demo.road Affine.id "geometric" with
    | ok s' b =>
      rw [hset] at hl
      refine ⟨s', ?_, ?_⟩
      · rw [size_of_ribs (Shell.setupFlat_rel (.inl ⟨b, hset⟩)).ribs, hsz]
      · rcases hl with ⟨v, hl⟩ | ⟨e, hl⟩ <;> cases hl
        rfl
    | throw s' b =>
      rw [hset] at hl
      refine ⟨s', ?_, ?_⟩
      · rw [size_of_ribs (Shell.setupFlat_rel (.inr ⟨b, hset⟩)).ribs, hsz]
      · rcases hl with ⟨v, hl⟩ | ⟨e, hl⟩ <;> cases hl
        rfl
    | ub w =>
      rw [hset] at hl
      rcases hl with ⟨v, hl⟩ | ⟨e, hl⟩ <;> cases hl
  have hn : ∀ x : ℝ, scalar x ≠ Val.cell 1 1 := fun x h => by cases h
  have hnew : [Slot.count, .num, .num, .num, .num, .num] ∈ signatures .shell "new" := by
    simp [signatures]
  have hd : ∀ {h : Heap ℝ} {a : Nat} {o : Obj ℝ}, Live h a o →
      ∀ b, (handle a : Val ℝ) = handle b → ∃ o, Live h b o := by
    rintro h a o ho b e
    simp only [handle, Val.int.injEq, List.cons.injEq, Nat.cast_inj, and_true, true_and] at e
    exact ⟨o, e ▸ ho⟩
  have hx : ∀ {h : Heap ℝ} (x : ℝ) b, (scalar x : Val ℝ) = handle b → ∃ o, Live h b o := by
    intro h x b e; cases e
  refine ⟨careful_of (sig := [.count, .num, .num, .num, .num, .num]) rfl hnew ?_ ?_, fun h1 l1 => ?_⟩
  · simp [Call.Proper, MexSpec.Proper, scalar, int64, InRange]
  · exact .cons ⟨1, d1, by norm_num, by norm_num⟩ (.cons (hn _) (.cons (hn _) (.cons (hn _)
      (.cons (hn _) (.cons (hn _) .nil)))))
  obtain rfl := Leaves.of_ok l1 c1
  refine ⟨careful_of (sig := [.num, .vec, .vec]) rfl (by simp [signatures]) ?_ ?_, fun h2 l2 => ?_⟩
  · simp [Call.Proper, MexSpec.Proper, scalar, vec31]
  · exact .cons (hn _) (.cons (.inl ⟨_, rfl⟩) (.cons (.inl ⟨_, rfl⟩) .nil))
  obtain rfl := Leaves.of_ok l2 c2
  refine ⟨careful_of (sig := [.object, .object, .pose, .text]) rfl (by simp [signatures]) ?_ ?_,
    fun h3 l3 => ?_⟩
  · simp [Call.Proper, MexSpec.Proper, handle, pose44, mat44, InRange]
  · exact .cons (hd (o := .shell s) rfl) (.cons (hd (o := .flat Demo.road) rfl) (.cons (.inl ⟨_, rfl⟩)
      (.cons ⟨_, rfl⟩ .nil)))
  obtain ⟨s', hs', rfl⟩ := c3 h3 l3
  have hrib : [Slot.object, .rib] ∈ signatures .shell "contactDepthRib" := by simp [signatures]
  refine ⟨careful_of (sig := [.object, .rib]) rfl hrib ?_ ?_, fun h4 l4 => ?_⟩
  · simp [Call.Proper, MexSpec.Proper, handle, int64, InRange]
  · refine .cons (hd (o := .shell s') rfl) (.cons ⟨1, d1, by norm_num, fun b t e hl => ?_⟩ .nil)
    have e : (handle 0 : Val ℝ) = handle b := by simpa using e
    simp only [handle, Val.int.injEq, List.cons.injEq, Nat.cast_inj, and_true, true_and] at e
    subst e
    have : s' = t := by
      have h5 : some (some (Obj.shell s')) = some (some (Obj.shell t)) := hl
      simpa using h5
    subst this
    rw [hs']; rfl
  have l4 : h4 = [some (.shell s'), some (.flat Demo.road)] := by
    have e := (C86_rib env [some (.shell s'), some (.flat Demo.road)] 0 s' rfl _ 1 d1 (by norm_num)
      (by norm_num)).1 ("contactDepthRib", fun s i => mapR scalar (s.contactDepthAt env.pol i))
      (by simp [shellRibValues])
    dsimp only at e l4
    rw [e] at l4
    generalize mapR scalar (s'.contactDepthAt env.pol (1 - 1 : Int).toNat) = r at l4
    cases r with
    | ok v => exact Leaves.of_ok l4 rfl
    | throw e => rcases l4 with ⟨v, h⟩ | ⟨e, h⟩ <;> cases h; rfl
    | ub w => rcases l4 with ⟨v, h⟩ | ⟨e, h⟩ <;> cases h
  subst l4
  refine ⟨careful_of (sig := [.object]) rfl (by simp [signatures]) ?_ ?_, fun h5 l5 => ?_⟩
  · simp [Call.Proper, MexSpec.Proper, handle, InRange]
  · exact .cons (hd (o := .shell s') rfl) .nil
  obtain rfl := Leaves.of_ok l5 (show _ = MRes.ok [none, some (.flat Demo.road)] [] from rfl)
  refine ⟨careful_of (sig := [.object, .rib]) rfl hrib ?_ ?_, fun _ _ => trivial⟩
  · simp [Call.Proper, MexSpec.Proper, scalar, int64, InRange]
  · refine .cons (hx _) (.cons ⟨1, d1, by norm_num, fun b t e hl => ?_⟩ .nil)
    have e : (scalar 0 : Val ℝ) = handle b := by simpa using e
    cases e

/-- The script above is careful, so it runs to its end. -/
example (env : Env ℝ) (hpol : env.pol = .raw) : CarefulScript env [] Demo.tyreScript ∧
    ∃ h', Session env [] Demo.tyreScript h' :=
  ⟨Demo.tyreScript_careful env,
    C88_careful_script_partial env hpol _ (Demo.tyreScript_careful env)⟩

/-- **C88 is false by the C++ standard**: a script that only creates a shell and asks for the contact
depth is careful, but has undefined behaviour, because the records lie beyond the end of their vector
(C06). -/
theorem C88_standard_refuted (env : Env ℝ) (hpol : env.pol = .strict) :
    ∃ cs : List (Call ℝ), CarefulScript env [] cs ∧ ¬ ∃ h', Session env [] cs h' := by
  obtain ⟨s, a, hs, -, hr, -⟩ := Demo.oneRib env.fresh
  have hsz : s.size = 1 := by rw [Shell.size, hr]; rfl
  have d1 := Demo.denotes_one env
  have c1 : Mex.call env .shell [] 1 [.chars "new".toList, int64 1, scalar 1, scalar 2, scalar 2,
      scalar 2, scalar 1] = .ok [some (.shell s)] [handle 0] := by
    rw [(C86_new env []).2.2.1 _ 1 1 2 2 2 1 d1 (by norm_num) (by norm_num),
      show (1 : Int).toNat = 1 from rfl, hs]
    rfl
  have hn : ∀ x : ℝ, scalar x ≠ Val.cell 1 1 := fun x h => by cases h
  refine ⟨[⟨.shell, 1, [.chars "new".toList, int64 1, scalar 1, scalar 2, scalar 2, scalar 2,
    scalar 1]⟩, ⟨.shell, 1, [.chars "contactDepthAvg".toList, handle 0]⟩], ⟨?_, fun h1 l1 => ?_⟩, ?_⟩
  · refine careful_of (sig := [.count, .num, .num, .num, .num, .num]) rfl (by simp [signatures]) ?_ ?_
    · simp [Call.Proper, MexSpec.Proper, scalar, int64, InRange]
    · exact .cons ⟨1, d1, by norm_num, by norm_num⟩ (.cons (hn _) (.cons (hn _) (.cons (hn _)
        (.cons (hn _) (.cons (hn _) .nil)))))
  · obtain rfl := Leaves.of_ok l1 c1
    refine ⟨careful_of (sig := [.object]) rfl (by simp [signatures]) ?_ ?_, fun _ _ => trivial⟩
    · simp [Call.Proper, MexSpec.Proper, handle, InRange]
    · refine .cons (fun b e => ?_) .nil
      simp only [handle, Val.int.injEq, List.cons.injEq, Nat.cast_inj, and_true, true_and] at e
      exact ⟨.shell s, e ▸ rfl⟩
  · rintro ⟨h', hss⟩
    cases hss with
    | cons l1 hss =>
      obtain rfl := Leaves.of_ok l1 c1
      cases hss with
      | cons l2 _ =>
        have hu := (C06_standard_refuted s (.make hs) (by omega)).2.1.depth
        have e := C86_shell_partial env [some (.shell s)] 0 s rfl
          ("contactDepthAvg", fun s => mapR scalar (s.contactDepth env.pol)) (by simp [shellValues])
        dsimp only at e l2
        rw [e] at l2
        rw [hpol] at l2
        revert hu l2
        cases s.contactDepth .strict with
        | ub w =>
          intro l2 _
          rcases l2 with ⟨v, h⟩ | ⟨e, h⟩ <;> cases h
        | ok v => intro _ h; cases h
        | throw e => intro _ h; cases h

/-- C06, C15: a shell with one rib on a mesh read from a text with one triangle. -/
example (fresh : Nat → Output ℝ) (pose : Affine ℝ) : ∃ (s : Shell ℝ) (m : Mesh ℝ), s.Reachable .raw ∧
    s.size = 1 ∧ m.Loaded demoNum ∧ (s.setupMesh .raw m pose "geometric").isUb = false := by
  obtain ⟨s, a, hs, -, hr, -⟩ := Demo.oneRib fresh
  have hsz : s.size = 1 := by rw [Shell.size, hr]; rfl
  obtain ⟨m, -, h1, -⟩ := C19_rdf_load demoNum "a".toList _ Affine.id _ _ demo_rdfText
  have hl : m.Loaded demoNum := .inl ⟨_, _, _, h1⟩
  exact ⟨s, m, .make hs, hsz, hl, C06_mesh_setup_partial demoNum s (.make hs) (by omega) m hl _ _⟩

end Enve
