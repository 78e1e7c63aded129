import Verif.Spec.Mex

/-! # The MATLAB gateways: isolation of objects and safety of handles -/

namespace Enve.Mex
open Scalar MexSpec
variable {α : Type} [Scalar α]

/-! ## Elementary facts -/

theorem check_cases (c : Bool) (m : String) : check c m = .ok () ∨ check c m = .throw m := by
  unfold check; cases c <;> simp

theorem check_ok {c : Bool} {m : String} {u : Unit} (h : check c m = .ok u) : c = true := by
  unfold check at h; cases c <;> simp_all

omit [Scalar α] in
theorem arity_cases (n : List Nat) (m : Nat) (args : List (Val α)) (o : Nat) :
    arity n m args o = .ok () ∨ ∃ e, arity n m args o = .throw e := by
  unfold arity
  rcases check_cases (n.contains args.length) "wrong number of inputs" with h | h <;> rw [h]
  · rcases check_cases (decide (o = m)) "wrong number of outputs" with h | h <;> rw [h] <;> simp
  · simp

omit [Scalar α] in
theorem arity_ok {n : List Nat} {m : Nat} {args : List (Val α)} {o : Nat} {u : Unit}
    (h : arity n m args o = .ok u) : args.length ∈ n ∧ o = m := by
  unfold arity at h
  rw [Res.bind_eq_ok] at h
  obtain ⟨v, h1, h2⟩ := h
  have := check_ok h1
  have := check_ok h2
  simp_all

omit [Scalar α] in
theorem getObj_ok {β : Type} {as : Obj α → Res β} {h : Heap α} {args : List (Val α)} {k a : Nat}
    {b : β} (e : getObj as h args k = .ok (a, b)) :
    ∃ v o, args[k]? = some v ∧ handleOf v = .ok a ∧ h[a]? = some (some o) ∧ as o = .ok b := by
  unfold getObj at e
  simp only [Res.bind_eq_ok, Res.pure_eq] at e
  obtain ⟨v, h1, a', h2, o, h3, b', h4, h5⟩ := e
  simp only [Res.ok.injEq, Prod.mk.injEq] at h5
  obtain ⟨rfl, rfl⟩ := h5
  refine ⟨v, o, ?_, h2, ?_, h4⟩
  · unfold arg at h1; split at h1 <;> simp_all
  · unfold deref at h3; split at h3 <;> simp_all

/-- What a command may do: nothing, make one object, change or free the object named by its first
handle, which is of the class of the file; `s` is the name of the command. -/
inductive Effect (file : File) (s : String) (h : Heap α) (args : List (Val α)) :
    MRes (Heap α) (List (Val α)) → Prop where
  | keep (outs) : (∀ v ∈ outs, ∀ r c d, v ≠ .int .u64 r c d) → Effect file s h args (.ok h outs)
  | fresh (o : Obj α) : Effect file s h args (alloc h o)
  | fail (e : String) : Effect file s h args (.throw h e)
  | write (v : Val α) (a : Nat) (o o' : Obj α) (outs) : s ∈ mutators file → args[1]? = some v →
      handleOf v = .ok a → Live h a o → kindOf o = kindOfFile file → kindOf o' = kindOfFile file →
      (∀ v ∈ outs, ∀ r c d, v ≠ .int .u64 r c d) → Effect file s h args (.ok (store h a o') outs)
  | writeFail (v : Val α) (a : Nat) (o o' : Obj α) (e : String) : s ∈ mutators file →
      args[1]? = some v → handleOf v = .ok a → Live h a o → kindOf o = kindOfFile file →
      kindOf o' = kindOfFile file → Effect file s h args (.throw (store h a o') e)
  | free (v : Val α) (a : Nat) (o : Obj α) : s = "delete" → args[1]? = some v →
      handleOf v = .ok a → Live h a o → kindOf o = kindOfFile file →
      Effect file s h args (.ok (h.set a none) [])
  | ub (w : String) : Effect file s h args (.ub w)

/-- The check `is_valid` accepts exactly the objects of its class. -/
def Checks {β : Type} (as : Obj α → Res β) (k : Kind) : Prop :=
  ∀ o, (∃ b, as o = .ok b ∧ kindOf o = k) ∨ (kindOf o ≠ k ∧ as o = .throw "Handle not valid.")

omit [Scalar α] in
theorem checks_flat : Checks (α := α) asFlat .flat := by
  intro o; cases o <;> simp [asFlat, kindOf]
omit [Scalar α] in
theorem checks_mesh : Checks (α := α) asMesh .mesh := by
  intro o; cases o <;> simp [asMesh, kindOf]
omit [Scalar α] in
theorem checks_tri : Checks (α := α) asTri .triangleground := by
  intro o; cases o <;> simp [asTri, kindOf]
omit [Scalar α] in
theorem checks_shell : Checks (α := α) asShell .shell := by
  intro o; cases o <;> simp [asShell, kindOf]

omit [Scalar α] in
theorem Checks.kind {β : Type} {as : Obj α → Res β} {k : Kind} (hc : Checks as k) {o : Obj α} {b : β}
    (h : as o = .ok b) : kindOf o = k := by
  rcases hc o with ⟨_, _, h'⟩ | ⟨_, h'⟩
  · exact h'
  · simp [h'] at h

omit [Scalar α] in
theorem effect_run {k : File} {mu : String} {h : Heap α} {args : List (Val α)}
    {r : Res (MRes (Heap α) (List (Val α)))} (hr : ∀ m, r = .ok m → Effect k mu h args m) :
    Effect k mu h args (run h r) := by
  cases r with
  | ok m => exact hr m rfl
  | throw e => exact .fail e
  | ub w => exact .ub w

theorem effect_give (k : File) (mu : String) (h : Heap α) (args : List (Val α)) (r : Ret α) :
    Effect k mu h args (give h r) := by
  cases r with
  | point p => exact .fresh _
  | plane p => exact .fresh _
  | tri p => exact .fresh _
  | _ => exact .keep _ (by simp)

theorem effect_query0 {β : Type} (as : Obj α → Res β) (f : β → Res (Ret α)) (k : File) (mu : String)
    (h : Heap α) (n : Nat) (args : List (Val α)) : Effect k mu h args (query0 as f h n args) := by
  refine effect_run fun m e => ?_
  simp only [Res.bind_eq_ok, Res.pure_eq, Res.ok.injEq] at e
  obtain ⟨_, _, ⟨a, s⟩, _, r, _, rfl⟩ := e
  exact effect_give ..

theorem effect_queryI {β : Type} (env : Env α) (as : Obj α → Res β) (f : β → Nat → Res (Ret α))
    (k : File) (mu : String) (h : Heap α) (n : Nat) (args : List (Val α)) :
    Effect k mu h args (queryI env as f h n args) := by
  refine effect_run fun m e => ?_
  simp only [Res.bind_eq_ok, Res.pure_eq, Res.ok.injEq] at e
  obtain ⟨_, _, ⟨a, s⟩, _, v, _, i, _, r, _, rfl⟩ := e
  exact effect_give ..

theorem effect_queryY {β : Type} (as : Obj α → Res β) (f : β → α → Res (Ret α))
    (k : File) (mu : String) (h : Heap α) (n : Nat) (args : List (Val α)) :
    Effect k mu h args (queryY as f h n args) := by
  refine effect_run fun m e => ?_
  simp only [Res.bind_eq_ok, Res.pure_eq, Res.ok.injEq] at e
  obtain ⟨_, _, ⟨a, s⟩, _, v, _, i, _, r, _, rfl⟩ := e
  exact effect_give ..

omit [Scalar α] in
theorem effect_delete {β : Type} {as : Obj α → Res β} {k : File}
    (hc : Checks as (kindOfFile k)) (h : Heap α) (n : Nat) (args : List (Val α)) :
    Effect k "delete" h args (doDelete as h n args) := by
  refine effect_run fun m e => ?_
  simp only [Res.bind_eq_ok, Res.pure_eq, Res.ok.injEq] at e
  obtain ⟨_, _, ⟨a, s⟩, ho, rfl⟩ := e
  obtain ⟨v, o, h1, h2, h3, h4⟩ := getObj_ok ho
  exact .free v a o rfl h1 h2 h3 (hc.kind h4)

omit [Scalar α] in
theorem effect_write {β : Type} {as : Obj α → Res β} {k : File} {nm : String}
    (hc : Checks as (kindOfFile k)) (hs : nm ∈ mutators k) {h : Heap α}
    {args : List (Val α)} {a : Nat} {b : β} (e : getObj as h args 1 = .ok (a, b)) {o' : Obj α}
    (hk : kindOf o' = kindOfFile k) : Effect k nm h args (.ok (store h a o') []) := by
  obtain ⟨v, o, h1, h2, h3, h4⟩ := getObj_ok e
  exact .write v a o o' [] hs h1 h2 h3 (hc.kind h4) hk (by simp)

omit [Scalar α] in
theorem effect_storeShell {nm : String} (hs : nm ∈ mutators .shell) {h : Heap α} {args : List (Val α)} {a : Nat} {s : Shell α}
    (e : getObj asShell h args 1 = .ok (a, s)) {β : Type} {outs : β → List (Val α)}
    (ho : ∀ b, ∀ v ∈ outs b, ∀ r c d, v ≠ .int .u64 r c d) (m : MRes (Shell α) β) :
    Effect .shell nm h args (storeShell h a outs m) := by
  obtain ⟨v, o, h1, h2, h3, h4⟩ := getObj_ok e
  cases m with
  | ok s b => exact .write v a o _ _ hs h1 h2 h3 (checks_shell.kind h4) rfl (ho b)
  | throw s e => exact .writeFail v a o _ e hs h1 h2 h3 (checks_shell.kind h4) rfl
  | ub w => exact .ub w

omit [Scalar α] in
theorem effect_storeMesh {nm : String} (hs : nm ∈ mutators .mesh) {h : Heap α} {args : List (Val α)} {a : Nat} {s : Mesh α}
    (e : getObj asMesh h args 1 = .ok (a, s)) (m : MRes (Mesh α) Bool) :
    Effect .mesh nm h args (storeMesh h a m) := by
  obtain ⟨v, o, h1, h2, h3, h4⟩ := getObj_ok e
  cases m with
  | ok s b => exact .write v a o _ _ hs h1 h2 h3 (checks_mesh.kind h4) rfl (by simp)
  | throw s e => exact .writeFail v a o _ e hs h1 h2 h3 (checks_mesh.kind h4) rfl
  | ub w => exact .ub w

theorem effect_flatTable (h : Heap α) (n : Nat) (args : List (Val α)) :
    ∀ p ∈ flatTable (α := α), Effect .flat p.1 h args (p.2 h n args) := by
  simp only [flatTable, List.forall_mem_cons]
  refine ⟨?_, ?_, effect_query0 .., ?_, effect_query0 .., ?_, effect_query0 .., ?_, ?_,
    effect_query0 .., effect_query0 .., ?_, ?_, by simp⟩
  · refine effect_run fun m e => ?_
    rw [Res.bind_eq_ok] at e
    obtain ⟨_, _, e⟩ := e
    split at e
    · simp only [Res.bind_eq_ok, Res.pure_eq, Res.ok.injEq] at e
      obtain ⟨_, _, _, _, _, _, _, _, _, _, _, _, f, _, rfl⟩ := e
      exact .fresh _
    · simp only [Res.bind_eq_ok, Res.pure_eq, Res.ok.injEq] at e
      obtain ⟨f, _, rfl⟩ := e
      exact .fresh _
  · exact effect_delete checks_flat ..
  · refine effect_run fun m e => ?_
    simp only [Res.bind_eq_ok, Res.pure_eq, Res.ok.injEq] at e
    obtain ⟨⟨a, f⟩, ho, v, _, o, _, rfl⟩ := e
    exact effect_write checks_flat (by simp [mutators]) ho rfl
  · refine effect_run fun m e => ?_
    simp only [Res.bind_eq_ok, Res.pure_eq, Res.ok.injEq] at e
    obtain ⟨_, _, ⟨a, f⟩, ho, v, _, o, _, rfl⟩ := e
    exact effect_write checks_flat (by simp [mutators]) ho rfl
  · refine effect_run fun m e => ?_
    simp only [Res.bind_eq_ok, Res.pure_eq, Res.ok.injEq] at e
    obtain ⟨_, _, ⟨a, f⟩, ho, ⟨_, g⟩, _, rfl⟩ := e
    exact effect_write checks_flat (by simp [mutators]) ho rfl
  · refine effect_run fun m e => ?_
    simp only [Res.bind_eq_ok, Res.pure_eq, Res.ok.injEq] at e
    obtain ⟨_, _, ⟨a, f⟩, ho, v, _, o, _, rfl⟩ := e
    exact effect_write checks_flat (by simp [mutators]) ho rfl
  · refine effect_run fun m e => ?_
    simp only [Res.bind_eq_ok, Res.pure_eq, Res.ok.injEq] at e
    obtain ⟨_, _, ⟨a, f⟩, ho, ⟨_, g⟩, _, rfl⟩ := e
    exact effect_give ..
  · refine effect_run fun m e => ?_
    simp only [Res.bind_eq_ok, Res.pure_eq, Res.ok.injEq] at e
    obtain ⟨_, _, ⟨a, f⟩, ho, ⟨_, g⟩, _, rfl⟩ := e
    exact effect_write checks_flat (by simp [mutators]) ho rfl

theorem effect_meshTable (env : Env α) (h : Heap α) (n : Nat) (args : List (Val α)) :
    ∀ p ∈ meshTable env, Effect .mesh p.1 h args (p.2 h n args) := by
  simp only [meshTable, List.forall_mem_cons]
  refine ⟨?_, ?_, effect_queryI .., effect_queryI .., effect_query0 .., ?_, ?_, by simp⟩
  · refine effect_run fun m e => ?_
    rw [Res.bind_eq_ok] at e
    obtain ⟨_, _, e⟩ := e
    split at e
    · simp only [Res.bind_eq_ok] at e
      obtain ⟨_, _, _, _, _, _, e⟩ := e
      split at e
      · cases e; exact .fresh _
      · rw [Res.bind_eq_ok] at e
        obtain ⟨_, _, e⟩ := e
        cases e; exact .fresh _
    · split at e
      · simp only [Res.bind_eq_ok] at e
        obtain ⟨_, _, _, _, _, _, _, _, e⟩ := e
        split at e
        · simp only [Res.bind_eq_ok] at e
          obtain ⟨_, _, _, _, e⟩ := e
          cases e; exact .fresh _
        · split at e
          · simp only [Res.bind_eq_ok] at e
            obtain ⟨_, _, _, _, e⟩ := e
            cases e; exact .fresh _
          · cases e; exact .fresh _
      · split at e
        · simp only [Res.bind_eq_ok] at e
          obtain ⟨_, _, _, _, _, _, _, _, _, _, ⟨_, _, _⟩, _, _, _, e⟩ := e
          simp only at e
          split at e
          · simp only [Res.bind_eq_ok] at e
            obtain ⟨_, _, _, _, e⟩ := e
            cases e; exact .fresh _
          · cases e; exact .fresh _
        · cases e; exact .fresh _
  · exact effect_delete checks_mesh ..
  · refine effect_run fun m e => ?_
    simp only [Res.bind_eq_ok, Res.pure_eq, Res.ok.injEq] at e
    obtain ⟨_, _, ⟨a, f⟩, ho, ⟨_, g⟩, _, rfl⟩ := e
    exact effect_write checks_mesh (by simp [mutators]) ho rfl
  · refine effect_run fun m e => ?_
    simp only [Res.bind_eq_ok] at e
    obtain ⟨_, _, ⟨a, f⟩, ho, _, _, _, _, _, _, e⟩ := e
    simp only at e
    split at e
    · split at e
      · cases e; exact .keep _ (by simp)
      · cases e; exact effect_storeMesh (by simp [mutators]) ho _
    · split at e
      · cases e; exact .keep _ (by simp)
      · simp only [Res.bind_eq_ok] at e
        obtain ⟨_, _, _, _, e⟩ := e
        cases e; exact effect_storeMesh (by simp [mutators]) ho _

theorem effect_triTable (env : Env α) (h : Heap α) (n : Nat) (args : List (Val α)) :
    ∀ p ∈ triTable env, Effect .triangleground p.1 h args
      (p.2 h n args) := by
  simp only [triTable, List.forall_mem_cons]
  refine ⟨?_, ?_, effect_query0 .., effect_query0 .., effect_query0 .., effect_query0 ..,
    effect_query0 .., ?_, effect_query0 .., by simp⟩
  · refine effect_run fun m e => ?_
    rw [Res.bind_eq_ok] at e
    obtain ⟨_, _, e⟩ := e
    split at e
    · simp only [Res.bind_eq_ok] at e
      obtain ⟨_, _, _, _, _, _, _, _, _, _, _, _, _, _, _, _, _, _, _, _, _, _, _, _, e⟩ := e
      cases e; exact .fresh _
    · simp only [Res.bind_eq_ok] at e
      obtain ⟨_, _, e⟩ := e
      cases e; exact .fresh _
  · exact effect_delete checks_tri ..
  · refine effect_run fun m e => ?_
    simp only [Res.bind_eq_ok, Res.pure_eq, Res.ok.injEq] at e
    obtain ⟨_, _, ⟨a, f⟩, ho, ⟨_, g⟩, _, rfl⟩ := e
    exact effect_write checks_tri (by simp [mutators]) ho rfl

theorem effect_shellTable (env : Env α) (h : Heap α) (n : Nat) (args : List (Val α)) :
    ∀ p ∈ shellTable env, Effect .shell p.1 h args (p.2 h n args) := by
  intro p hp
  simp only [shellTable, List.mem_append] at hp
  rcases hp with ((hp | hp) | hp) | hp
  · revert p
    simp only [shellActions, List.forall_mem_cons]
    refine ⟨?_, ?_, ?_, ?_, ?_, ?_, ?_, ?_, ?_, by simp⟩
    · refine effect_run fun m e => ?_
      simp only [Res.bind_eq_ok] at e
      obtain ⟨_, _, _, _, _, _, _, _, _, _, _, _, _, _, _, _, _, _, _, _, _, _, _, _, _, _, _, _, e⟩ := e
      cases e; exact .fresh _
    · exact effect_delete checks_shell ..
    · refine effect_run fun m e => ?_
      simp only [Res.bind_eq_ok] at e
      obtain ⟨_, _, ⟨a, f⟩, ho, _, _, _, _, e⟩ := e
      cases e; exact effect_storeShell (by simp [mutators]) ho (by simp) _
    · refine effect_run fun m e => ?_
      simp only [Res.bind_eq_ok] at e
      obtain ⟨_, _, ⟨a, f⟩, ho, _, _, _, _, e⟩ := e
      cases e; exact effect_write checks_shell (by simp [mutators]) ho rfl
    · refine effect_run fun m e => ?_
      simp only [Res.bind_eq_ok] at e
      obtain ⟨_, _, ⟨a, f⟩, ho, _, _, _, _, _, _, _, _, e⟩ := e
      cases e; exact effect_write checks_shell (by simp [mutators]) ho rfl
    · refine effect_run fun m e => ?_
      simp only [Res.bind_eq_ok] at e
      obtain ⟨_, _, ⟨a, f⟩, ho, _, _, _, _, e⟩ := e
      cases e; exact effect_write checks_shell (by simp [mutators]) ho rfl
    · refine effect_run fun m e => ?_
      simp only [Res.bind_eq_ok] at e
      obtain ⟨_, _, ⟨a, f⟩, ho, _, _, _, _, e⟩ := e
      cases e; exact effect_give ..
    · refine effect_run fun m e => ?_
      simp only [Res.bind_eq_ok] at e
      obtain ⟨_, _, ⟨a, f⟩, ho, ⟨_, g⟩, _, _, _, _, _, _, _, _, _, e⟩ := e
      cases e; exact effect_storeShell (by simp [mutators]) ho (by simp) _
    · refine effect_run fun m e => ?_
      simp only [Res.bind_eq_ok] at e
      obtain ⟨_, _, ⟨a, f⟩, ho, ⟨_, g⟩, _, _, _, _, _, _, _, _, _, e⟩ := e
      cases e; exact effect_storeShell (by simp [mutators]) ho (by simp) _
  · obtain ⟨q, _, rfl⟩ := List.mem_map.1 hp
    exact effect_query0 ..
  · obtain ⟨q, _, rfl⟩ := List.mem_map.1 hp
    exact effect_queryI ..
  · obtain ⟨q, _, rfl⟩ := List.mem_map.1 hp
    exact effect_queryY ..

/-- Every command of every MEX file. -/
theorem effect_table (env : Env α) (file : File) (h : Heap α) (n : Nat) (args : List (Val α)) :
    ∀ p ∈ table env file, Effect file p.1 h args
      (p.2 h n args) := by
  cases file with
  | flat => exact effect_flatTable h n args
  | mesh => exact effect_meshTable env h n args
  | triangleground => exact effect_triTable env h n args
  | shell => exact effect_shellTable env h n args

theorem mem_of_lookup {β : Type} {l : List (String × β)} {s : String} {b : β}
    (h : l.lookup s = some b) : (s, b) ∈ l := by
  induction l with
  | nil => simp at h
  | cons p l ih =>
    obtain ⟨t, c⟩ := p
    rw [List.lookup_cons] at h
    split at h
    · rename_i hst
      simp only [beq_iff_eq] at hst
      simp only [Option.some.injEq] at h
      subst hst; subst h; simp
    · exact List.mem_cons_of_mem _ (ih h)

theorem effect_mexFunction (env : Env α) (file : File) (h : Heap α) (n : Nat)
    (args : List (Val α)) (s : String) (hs : nameOf args = some s) :
    Effect file s h args
      (mexFunction env file h n args) := by
  unfold mexFunction
  match args, hs with
  | .chars c :: rest, hs =>
    simp only [nameOf, Option.some.injEq] at hs
    subst hs
    simp only
    split
    · rename_i f hf
      exact effect_table env file h n _ _ (mem_of_lookup hf)
    · exact .fail _

/-! ## Calls -/

omit [Scalar α] in
theorem handleOf_proper {v : Val α} {a : Nat} (hp : Proper v) (h : handleOf v = .ok a) :
    v = handle a := by
  unfold handleOf at h
  split at h
  · rename_i r c d
    split at h
    · rename_i hrc
      obtain ⟨h1, h2⟩ := hp
      match d, h1, h2, h with
      | [k], h1, h2, h =>
        have hk := (h2 k (by simp)).1
        have : r = 1 ∧ c = 1 := by simpa using hrc
        obtain ⟨rfl, rfl⟩ := this
        simp only [Res.ok.injEq] at h
        subst h
        simp [handle, Int.toNat_of_nonneg hk]
      | _ :: _ :: _, h1, _, _ => simp [hrc] at h1
    · simp at h
  · simp at h

omit [Scalar α] in
theorem handle_inj {a b : Nat} (h : (handle a : Val α) = handle b) : a = b := by
  simpa [handle] using h

/-- The effect of a call from MATLAB. -/
theorem effect_call (env : Env α) (c : Call α) (h h' : Heap α)
    (hl : Leaves (call env c.file h c.nout c.args) h') :
    h' = h ∨ (∃ o, h' = h ++ [some o]) ∨
    (∃ s v a o o', nameOf c.args = some s ∧ s ∈ mutators c.file ∧ c.args[1]? = some v ∧
      handleOf v = .ok a ∧ Live h a o ∧ kindOf o = kindOfFile c.file ∧
      kindOf o' = kindOfFile c.file ∧ h' = store h a o') ∨
    (∃ v a o, nameOf c.args = some "delete" ∧ c.args[1]? = some v ∧
      handleOf v = .ok a ∧ Live h a o ∧ kindOf o = kindOfFile c.file ∧ h' = h.set a none) := by
  have hl' : Leaves (mexFunction env c.file h c.nout c.args) h' := by
    unfold call at hl
    split at hl
    · rename_i h1 outs hm
      rw [hm]
      left; refine ⟨outs, ?_⟩
      split at hl <;> rcases hl with ⟨v, e⟩ | ⟨v, e⟩ <;> simp_all
    · rename_i h1 e hm
      rw [hm]; exact hl
    · rcases hl with ⟨v, e⟩ | ⟨v, e⟩ <;> cases e
  cases hn : nameOf c.args with
  | none =>
    left
    unfold mexFunction at hl'
    match ha : c.args, hn with
    | [], _ => rw [ha] at hl'; rcases hl' with ⟨v, e⟩ | ⟨v, e⟩ <;> cases e; rfl
    | .dbl .. :: _, _ => rw [ha] at hl'; rcases hl' with ⟨v, e⟩ | ⟨v, e⟩ <;> cases e; rfl
    | .int .. :: _, _ => rw [ha] at hl'; rcases hl' with ⟨v, e⟩ | ⟨v, e⟩ <;> cases e; rfl
    | .bool .. :: _, _ => rw [ha] at hl'; rcases hl' with ⟨v, e⟩ | ⟨v, e⟩ <;> cases e; rfl
    | .cell .. :: _, _ => rw [ha] at hl'; rcases hl' with ⟨v, e⟩ | ⟨v, e⟩ <;> cases e; rfl
    | .nd :: _, _ => rw [ha] at hl'; rcases hl' with ⟨v, e⟩ | ⟨v, e⟩ <;> cases e; rfl
    | .chars _ :: _, hn => simp [nameOf] at hn
  | some s =>
    have he := effect_mexFunction env c.file h c.nout c.args s hn
    generalize mexFunction env c.file h c.nout c.args = m at he hl'
    cases he with
    | keep outs _ => rcases hl' with ⟨v, e⟩ | ⟨v, e⟩ <;> cases e; exact .inl rfl
    | fresh o => rcases hl' with ⟨v, e⟩ | ⟨v, e⟩ <;> cases e; exact .inr (.inl ⟨o, rfl⟩)
    | fail e => rcases hl' with ⟨v, e⟩ | ⟨v, e⟩ <;> cases e; exact .inl rfl
    | write v a o o' outs h1 h2 h3 h4 h5 h6 h7 =>
      rcases hl' with ⟨_, e⟩ | ⟨_, e⟩ <;> cases e
      exact .inr (.inr (.inl ⟨s, v, a, o, o', rfl, h1, h2, h3, h4, h5, h6, rfl⟩))
    | writeFail v a o o' e h1 h2 h3 h4 h5 h6 =>
      rcases hl' with ⟨_, e⟩ | ⟨_, e⟩ <;> cases e
      exact .inr (.inr (.inl ⟨s, v, a, o, o', rfl, h1, h2, h3, h4, h5, h6, rfl⟩))
    | free v a o h1 h2 h3 h4 h5 =>
      rcases hl' with ⟨_, e⟩ | ⟨_, e⟩ <;> cases e
      exact .inr (.inr (.inr ⟨v, a, o, by rw [h1], h2, h3, h4, h5, rfl⟩))
    | ub w => rcases hl' with ⟨v, e⟩ | ⟨v, e⟩ <;> cases e

end Enve.Mex

namespace Enve
open Scalar Mex MexSpec
variable {α : Type} [Scalar α]

/-! ## C83: objects are isolated from each other -/

/-- C83: whatever a call does (also when it raises an error), at most one object appears and every
existing object that is not named by the first handle of a modifying command keeps its state; no
object changes class, and only `delete` removes one. -/
theorem C83_isolation (env : Env α) (c : Call α) (hp : c.Proper) (h h' : Heap α)
    (hl : Leaves (Mex.call env c.file h c.nout c.args) h') :
    (h'.length = h.length ∨ h'.length = h.length + 1) ∧
    (∀ a < h.length, ¬ c.Touches a → h'[a]? = h[a]?) ∧
    (∀ a < h.length, c.Touches a → h'[a]? ≠ h[a]? → ∃ o, Live h a o ∧ kindOf o = kindOfFile c.file ∧
      ((nameOf c.args = some "delete" ∧ h'[a]? = some none) ∨
        ∃ o', Live h' a o' ∧ kindOf o' = kindOf o)) := by
  have hmem : ∀ {v : Val α}, c.args[1]? = some v → v ∈ c.args := fun h => List.mem_of_getElem? h
  have hdel : "delete" ∈ mutators c.file := by cases c.file <;> simp [mutators]
  rcases effect_call env c h h' hl with rfl | ⟨o, rfl⟩ | ⟨s, v, b, o, o', h0, h1, h2, h3, h4, h5, h6, rfl⟩
    | ⟨v, b, o, h0, h2, h3, h4, h5, rfl⟩
  · exact ⟨.inl rfl, fun _ _ _ => rfl, fun _ _ _ h => absurd rfl h⟩
  · refine ⟨.inr (by simp), fun a ha _ => List.getElem?_append_left ha, fun a ha _ hne => ?_⟩
    exact absurd (List.getElem?_append_left ha) hne
  · have hv := handleOf_proper (hp v (hmem h2)) h3
    have hb : ∀ a, ¬ c.Touches a → b ≠ a := by
      rintro a ht rfl
      exact ht ⟨⟨s, h0, h1⟩, hv ▸ h2⟩
    refine ⟨.inl (by simp [store]), fun a _ ht => ?_, fun a ha ht _ => ?_⟩
    · simp [store, hb a ht]
    · have : b = a := handle_inj (α := α) (by rw [← hv]; exact Option.some.inj (h2.symm.trans ht.2))
      subst this
      exact ⟨o, h4, h5, .inr ⟨o', by simp [Live, store, ha], by rw [h5, h6]⟩⟩
  · have hv := handleOf_proper (hp v (hmem h2)) h3
    have hb : ∀ a, ¬ c.Touches a → b ≠ a := by
      rintro a ht rfl
      exact ht ⟨⟨_, h0, hdel⟩, hv ▸ h2⟩
    refine ⟨.inl (by simp), fun a _ ht => ?_, fun a ha ht _ => ?_⟩
    · simp [hb a ht]
    · have : b = a := handle_inj (α := α) (by rw [← hv]; exact Option.some.inj (h2.symm.trans ht.2))
      subst this
      exact ⟨o, h4, h5, .inl ⟨h0, by simp [ha]⟩⟩

/-- C83: over a whole script, an object that no modifying command names first keeps its state. -/
theorem C83_session (env : Env α) {h h' : Heap α} {cs : List (Call α)}
    (hs : Session env h cs h') (hp : ∀ c ∈ cs, c.Proper) (a : Nat) (ha : a < h.length)
    (ht : ∀ c ∈ cs, ¬ c.Touches a) : h.length ≤ h'.length ∧ h'[a]? = h[a]? := by
  induction hs with
  | nil h => exact ⟨Nat.le_refl _, rfl⟩
  | @cons h h1 h2 c cs hl _ ih =>
    have hc := C83_isolation env c (hp c (by simp)) h h1 hl
    have hlen : h.length ≤ h1.length := by rcases hc.1 with e | e <;> omega
    have := ih (fun c hc => hp c (by simp [hc])) (by omega) (fun c hc => ht c (by simp [hc]))
    exact ⟨by omega, this.2.trans (hc.2.1 a ha (ht c (by simp)))⟩

/-- The heap of a session only grows. -/
theorem Mex.session_length (env : Env α) {h h' : Heap α} {cs : List (Call α)}
    (hs : Session env h cs h') : h.length ≤ h'.length := by
  induction hs with
  | nil h => exact Nat.le_refl _
  | @cons h h1 h2 c cs hl _ ih =>
    rcases effect_call env c h h1 hl with rfl | ⟨o, rfl⟩ | ⟨_, _, _, _, _, _, _, _, _, _, _, _, rfl⟩
      | ⟨_, _, _, _, _, _, _, _, rfl⟩ <;> (simp_all [store]; try omega)

/-- C83: a handle a call returns is new: it denotes an object made by that call. -/
theorem C83_handles (env : Env α) (c : Call α) (h h' : Heap α) (outs : List (Val α))
    (hr : Mex.call env c.file h c.nout c.args = .ok h' outs) (a : Nat)
    (ha : handle a ∈ outs) : a = h.length ∧ ∃ o, h' = h ++ [some o] ∧ Live h' a o := by
  have hm : mexFunction env c.file h c.nout c.args = .ok h' outs := by
    unfold Mex.call at hr
    split at hr
    · split at hr <;> simp_all
    · cases hr
    · cases hr
  cases hn : nameOf c.args with
  | none =>
    exfalso
    unfold mexFunction at hm
    match hargs : c.args, hn with
    | [], _ => rw [hargs] at hm; cases hm
    | .dbl .. :: _, _ => rw [hargs] at hm; cases hm
    | .int .. :: _, _ => rw [hargs] at hm; cases hm
    | .bool .. :: _, _ => rw [hargs] at hm; cases hm
    | .cell .. :: _, _ => rw [hargs] at hm; cases hm
    | .nd :: _, _ => rw [hargs] at hm; cases hm
    | .chars _ :: _, hn => simp [nameOf] at hn
  | some s =>
    have he := effect_mexFunction env c.file h c.nout c.args s hn
    rw [hm] at he
    generalize hx : (MRes.ok h' outs : MRes (Heap α) (List (Val α))) = x at he
    cases he with
    | keep outs hno => cases hx; exact absurd rfl (hno _ ha _ _ _)
    | fresh o =>
      cases hx
      have : a = h.length := handle_inj (α := α) (by simpa [handle] using ha)
      exact ⟨this, o, rfl, by simp [Live, this]⟩
    | fail e => cases hx
    | write v a o o' outs h1 h2 h3 h4 h5 h6 hno => cases hx; exact absurd rfl (hno _ ha _ _ _)
    | writeFail => cases hx
    | free => cases hx; simp at ha
    | ub => cases hx

/-- C83: in one script no handle is given out twice. -/
theorem C83_distinct (env : Env α) (c d : Call α) {h h1 h2 h3 : Heap α} {cs : List (Call α)}
    {outs outs' : List (Val α)}
    (hc : Mex.call env c.file h c.nout c.args = .ok h1 outs) (hs : Session env h1 cs h2)
    (hd : Mex.call env d.file h2 d.nout d.args = .ok h3 outs') {a b : Nat}
    (ha : handle a ∈ outs) (hb : handle b ∈ outs') : a ≠ b := by
  obtain ⟨rfl, o, rfl, _⟩ := C83_handles env c h h1 outs hc a ha
  obtain ⟨rfl, _⟩ := C83_handles env d h2 h3 outs' hd b hb
  have := session_length env hs
  simp at this
  omega

/-! ## C84: handles of the wrong class -/

namespace Mex

omit [Scalar α] in
theorem getObj_wrong {β : Type} {as : Obj α → Res β} {k : Kind} (hc : Checks as k) {h : Heap α}
    {args : List (Val α)} {i : Nat} {v : Val α} (hv : args[i]? = some v) (hp : Proper v)
    (hw : WrongFor h k v) : ∃ e, getObj as h args i = .throw e := by
  unfold getObj arg
  simp only [hv, Res.bind_ok]
  rcases hw with hw | ⟨a, o, rfl, ho, hk⟩
  · unfold handleOf
    split
    · rename_i r c d
      split
      · rename_i hrc
        exfalso
        obtain ⟨h1, h2⟩ := hp
        match d, h1, h2, hw with
        | [k], h1, h2, hw =>
          have hk := (h2 k (by simp)).1
          have : r = 1 ∧ c = 1 := by simpa using hrc
          obtain ⟨rfl, rfl⟩ := this
          exact hw k.toNat (by simp [handle, Int.toNat_of_nonneg hk])
        | [], h1, _, _ => simp [hrc] at h1
        | _ :: _ :: _, h1, _, _ => simp [hrc] at h1
      · exact ⟨_, rfl⟩
    · exact ⟨_, rfl⟩
  · have hd : deref h a = .ok o := by unfold deref; rw [show h[a]? = _ from ho]
    rcases hc o with ⟨_, _, h'⟩ | ⟨_, h'⟩
    · exact absurd h' hk
    · exact ⟨"Handle not valid.", by simp [handleOf, handle, hd, h']⟩

omit [Scalar α] in
theorem getObj_live {β : Type} {as : Obj α → Res β} {h : Heap α} {args : List (Val α)} {i a : Nat}
    {o : Obj α} {b : β} (hv : args[i]? = some (handle a)) (hl : Live h a o) (hb : as o = .ok b) :
    getObj as h args i = .ok (a, b) := by
  unfold getObj arg
  have hd : deref h a = .ok o := by unfold deref; rw [show h[a]? = _ from hl]
  simp [hv, handleOf, handle, hd, hb]

/-- The command rejects its inputs. -/
def Refuses (h : Heap α) (m : MRes (Heap α) (List (Val α))) : Prop := ∃ e, m = .throw h e

omit [Scalar α] in
theorem refuses_run {h : Heap α} {r : Res (MRes (Heap α) (List (Val α)))} {e : String}
    (hr : r = .throw e) : Refuses h (run h r) := ⟨e, by rw [hr]; rfl⟩

omit [Scalar α] in
/-- A command that checks the number of its values and then reads its object. -/
theorem refuses_arity {γ : Type} {h : Heap α} {n : List Nat} {m o : Nat} {args : List (Val α)}
    {r : Res γ} {f : γ → Res (MRes (Heap α) (List (Val α)))} {e : String} (hr : r = .throw e) :
    Refuses h (run h (arity n m args o >>= fun _ => r >>= f)) := by
  rcases arity_cases n m args o with ha | ⟨e', ha⟩
  · exact refuses_run (e := e) (by rw [ha, hr]; rfl)
  · exact refuses_run (e := e') (by rw [ha]; rfl)

theorem refuses_table (env : Env α) (file : File) (h : Heap α) (n : Nat) {args : List (Val α)}
    {v : Val α} (hv : args[1]? = some v) (hp : Proper v) (hw : WrongFor h (kindOfFile file) v) :
    ∀ p ∈ table env file, p.1 ≠ "new" → Refuses h (p.2 h n args) := by
  cases file with
  | flat =>
    obtain ⟨e, he⟩ := getObj_wrong checks_flat hv hp hw
    simp only [table, flatTable, List.forall_mem_cons]
    refine ⟨fun h => absurd rfl h, ?_, ?_, ?_, ?_, ?_, ?_, ?_, ?_, ?_, ?_, ?_, ?_, by simp⟩ <;> intro _
    rotate_left 2
    · exact refuses_run (by rw [he]; rfl)
    all_goals exact refuses_arity he
  | mesh =>
    obtain ⟨e, he⟩ := getObj_wrong checks_mesh hv hp hw
    simp only [table, meshTable, List.forall_mem_cons]
    refine ⟨fun h => absurd rfl h, ?_, ?_, ?_, ?_, ?_, ?_, by simp⟩ <;> intro _ <;>
      exact refuses_arity he
  | triangleground =>
    obtain ⟨e, he⟩ := getObj_wrong checks_tri hv hp hw
    simp only [table, triTable, List.forall_mem_cons]
    refine ⟨fun h => absurd rfl h, ?_, ?_, ?_, ?_, ?_, ?_, ?_, ?_, by simp⟩ <;> intro _ <;>
      exact refuses_arity he
  | shell =>
    obtain ⟨e, he⟩ := getObj_wrong checks_shell hv hp hw
    intro p hm
    simp only [table, shellTable, List.mem_append] at hm
    rcases hm with ((hm | hm) | hm) | hm
    · revert p
      simp only [shellActions, List.forall_mem_cons]
      refine ⟨fun h => absurd rfl h, ?_, ?_, ?_, ?_, ?_, ?_, ?_, ?_, by simp⟩ <;> intro _ <;>
        exact refuses_arity he
    all_goals
      obtain ⟨q, _, rfl⟩ := List.mem_map.1 hm
      intro _
      exact refuses_arity he

theorem rejects_call {env : Env α} {file : File} {h : Heap α} {n : Nat} {args : List (Val α)}
    (hr : Refuses h (mexFunction env file h n args)) : Rejects (Mex.call env file h n args) h := by
  obtain ⟨e, he⟩ := hr
  exact ⟨e, by unfold Mex.call; rw [he]⟩

end Mex

/-- C84: a call with text as its first value, other than `new`, whose handle is no handle or belongs
to a live object of another class raises an error and changes nothing. -/
theorem C84_first_partial (env : Env α) (c : Call α) (hp : c.Proper) (h : Heap α) (v : Val α)
    (hn : nameOf c.args ≠ some "new") (hv : c.args[1]? = some v)
    (hw : WrongFor h (kindOfFile c.file) v) :
    Rejects (Mex.call env c.file h c.nout c.args) h := by
  refine rejects_call ?_
  have hpv := hp v (List.mem_of_getElem? hv)
  unfold mexFunction
  match ha : c.args, hn, hv with
  | .chars s :: _, hn, hv =>
    simp only
    split
    · rename_i f hf
      exact refuses_table env c.file h c.nout hv hpv hw _ (mem_of_lookup hf)
        (fun hs => hn (congrArg some hs))
    · exact ⟨_, rfl⟩
  | .dbl .. :: _, _, _ => exact ⟨_, rfl⟩
  | .int .. :: _, _, _ => exact ⟨_, rfl⟩
  | .bool .. :: _, _, _ => exact ⟨_, rfl⟩
  | .cell .. :: _, _, _ => exact ⟨_, rfl⟩
  | .nd :: _, _, _ => exact ⟨_, rfl⟩
  | [], _, _ => exact ⟨_, rfl⟩

/-- C84: the same holds for the second handle of the commands that take one. -/
theorem C84_second_partial (env : Env α) (c : Call α) (hp : c.Proper) (h : Heap α) (s : String)
    (a : Nat) (o : Obj α) (w : Val α) (k : Kind) (hn : nameOf c.args = some s)
    (h1 : c.args[1]? = some (handle a)) (hl : Live h a o) (hk : kindOf o = kindOfFile c.file)
    (h2 : c.args[2]? = some w) (hs : secondKind c.file s = some k) (hw : WrongFor h k w) :
    Rejects (Mex.call env c.file h c.nout c.args) h := by
  refine rejects_call ?_
  have hpw := hp w (List.mem_of_getElem? h2)
  have key : ∀ {β γ : Type} {as : Obj α → Res β} {as' : Obj α → Res γ} {k' : Kind} {n m : _}
      (_ : Checks as (kindOfFile c.file)) (_ : Checks as' k') (_ : WrongFor h k' w)
      {f : Nat × β → Nat × γ → Res (MRes (Heap α) (List (Val α)))},
      Refuses h (run h (arity n m c.args c.nout >>= fun _ => getObj as h c.args 1 >>= fun p =>
        getObj as' h c.args 2 >>= fun q => f p q)) := by
    intro β γ as as' k' n m hc hc' hw' f
    obtain ⟨e, he⟩ := getObj_wrong hc' h2 hpw hw'
    rcases hc o with ⟨b, hb, _⟩ | ⟨hne, _⟩
    · have := getObj_live h1 hl hb
      rw [this, he]
      exact refuses_arity (r := (Res.ok (a, b) >>= fun p => Res.throw e >>= fun q => f p q))
        (f := Res.ok) (e := e) rfl |>.imp fun e' he' => by
          rw [← he']
          rcases arity_cases n m c.args c.nout with ha | ⟨e'', ha⟩ <;> rw [ha] <;> rfl
    · exact absurd hk hne
  unfold mexFunction
  match ha : c.args, hn, hs with
  | .chars t :: rest, hn, hs =>
    simp only [nameOf, Option.some.injEq] at hn
    simp only [hn]
    rw [← ha]
    obtain ⟨file, nout, args⟩ := c
    simp only at *
    unfold secondKind at hs
    split at hs <;> simp only [Option.some.injEq, reduceCtorEq] at hs <;> subst hs
    · exact key checks_flat checks_flat hw
    · exact key checks_flat checks_flat hw
    · exact key checks_flat checks_flat hw
    · exact key checks_mesh checks_mesh hw
    · exact key checks_tri checks_tri hw
    · exact key checks_shell checks_flat hw
    · exact key checks_shell checks_mesh hw

/-- C84 fails for handles of deleted objects, which no check recognises: after `new` and `delete`
every further use of the handle, including another `delete`, is undefined behaviour; so is the use of
a number that never was a handle. -/
theorem C84_refuted (env : Env α) :
    ∃ h : Heap α,
      Mex.call env .mesh [] 1 [.chars "new".toList] = .ok h [handle 0] ∧
      Mex.call env .mesh h 0 [.chars "delete".toList, handle 0] = .ok [none] [] ∧
      (∃ w, Mex.call env .mesh [none] 1 [.chars "size".toList, handle 0] = .ub w) ∧
      (∃ w, Mex.call env .mesh [none] 0 [.chars "delete".toList, handle 0] = .ub w) ∧
      (∃ w, Mex.call env .mesh [none] 1 [.chars "size".toList, handle 7] = .ub w) := by
  refine ⟨[some (.mesh Mesh.empty)], ?_, ?_, ⟨"dangling handle", ?_⟩, ⟨"dangling handle", ?_⟩,
    ⟨"dangling handle", ?_⟩⟩ <;> rfl

/-! ## C85: shapes of vectors and poses -/

namespace Mex

omit [Scalar α] in
theorem vecArg_vec31 (w : V3 α) : vecArg (vec31 w) = .ok w := rfl

omit [Scalar α] in
theorem poseArg_mat44 (a : Affine α) (l0 l1 l2 l3 : α) :
    poseArg (mat44 a l0 l1 l2 l3) = .ok a := rfl

omit [Scalar α] in
theorem vecArg_misfit {v : Val α} (h : Misfit v 3 1) : ∃ e, vecArg v = .throw e := by
  unfold vecArg matrix
  match hd : v.dims with
  | none => exact ⟨_, rfl⟩
  | some (m, n) =>
    obtain ⟨h1, h2⟩ := h m n hd
    exact ⟨_, by simp [check, h1, h2]; rfl⟩

omit [Scalar α] in
theorem poseArg_misfit {v : Val α} (h : Misfit v 4 4) : ∃ e, poseArg v = .throw e := by
  unfold poseArg matrix
  match hd : v.dims with
  | none => exact ⟨_, rfl⟩
  | some (m, n) =>
    obtain ⟨h1, h2⟩ := h m n hd
    exact ⟨_, by simp [check, h1, h2]; rfl⟩

omit [Scalar α] in
theorem elem_cases (d : List α) (k : Nat) :
    (k < d.length ∧ ∃ x, elem (some d) k = .ok x) ∨ (d.length ≤ k ∧ ∃ w, elem (some d) k = .ub w) := by
  by_cases h : k < d.length
  · exact .inl ⟨h, d[k], by simp [elem, h]⟩
  · have h : d.length ≤ k := by omega
    exact .inr ⟨h, _, by simp [elem, h]; rfl⟩

/-- The call of a command found in the table. -/
theorem call_table {env : Env α} {file : File} {h : Heap α} {n : Nat} {args : List (Val α)}
    {f : Cmd α} (hf : mexFunction env file h n args = f h n args) {h' : Heap α} {outs : List (Val α)}
    (hr : f h n args = .ok h' outs) (hn : n ≤ outs.length) :
    Mex.call env file h n args = .ok h' outs := by
  unfold Mex.call
  rw [hf, hr]
  simp [Nat.not_lt.2 hn]

omit [Scalar α] in
theorem flat1 {h : Heap α} {a : Nat} {f : Flat α} (hl : Live h a (.flat f)) (c : Val α)
    (rest : List (Val α)) : getObj asFlat h (c :: handle a :: rest) 1 = .ok (a, f) :=
  getObj_live (o := .flat f) rfl hl rfl
omit [Scalar α] in
theorem mesh1 {h : Heap α} {a : Nat} {f : Mesh α} (hl : Live h a (.mesh f)) (c : Val α)
    (rest : List (Val α)) : getObj asMesh h (c :: handle a :: rest) 1 = .ok (a, f) :=
  getObj_live (o := .mesh f) rfl hl rfl
omit [Scalar α] in
theorem tri1 {h : Heap α} {a : Nat} {f : TriangleGround α} (hl : Live h a (.tri f)) (c : Val α)
    (rest : List (Val α)) : getObj asTri h (c :: handle a :: rest) 1 = .ok (a, f) :=
  getObj_live (o := .tri f) rfl hl rfl
omit [Scalar α] in
theorem shell1 {h : Heap α} {a : Nat} {f : Shell α} (hl : Live h a (.shell f)) (c : Val α)
    (rest : List (Val α)) : getObj asShell h (c :: handle a :: rest) 1 = .ok (a, f) :=
  getObj_live (o := .shell f) rfl hl rfl
omit [Scalar α] in
theorem flat2 {h : Heap α} {a : Nat} {f : Flat α} (hl : Live h a (.flat f)) (c d : Val α)
    (rest : List (Val α)) : getObj asFlat h (c :: d :: handle a :: rest) 2 = .ok (a, f) :=
  getObj_live (o := .flat f) rfl hl rfl
omit [Scalar α] in
theorem mesh2 {h : Heap α} {a : Nat} {f : Mesh α} (hl : Live h a (.mesh f)) (c d : Val α)
    (rest : List (Val α)) : getObj asMesh h (c :: d :: handle a :: rest) 2 = .ok (a, f) :=
  getObj_live (o := .mesh f) rfl hl rfl
omit [Scalar α] in
theorem tri2 {h : Heap α} {a : Nat} {f : TriangleGround α} (hl : Live h a (.tri f)) (c d : Val α)
    (rest : List (Val α)) : getObj asTri h (c :: d :: handle a :: rest) 2 = .ok (a, f) :=
  getObj_live (o := .tri f) rfl hl rfl

omit [Scalar α] in
theorem setOrigin_eq {h : Heap α} {a : Nat} {f : Flat α} (hl : Live h a (.flat f)) (c v : Val α)
    (n : Nat) : flatSetOrigin h n [c, handle a, v] = run h (vecArg v >>= fun o =>
      .ok (.ok (store h a (.flat ⟨⟨o, f.plane.normal⟩, f.friction⟩)) [])) := by
  unfold flatSetOrigin; rw [flat1 hl]; rfl
omit [Scalar α] in
theorem setNormal_eq {h : Heap α} {a : Nat} {f : Flat α} (hl : Live h a (.flat f)) (c v : Val α) :
    flatSetNormal h 0 [c, handle a, v] = run h (vecArg v >>= fun o =>
      .ok (.ok (store h a (.flat ⟨⟨f.plane.origin, o⟩, f.friction⟩)) [])) := by
  unfold flatSetNormal; rw [flat1 hl]; rfl
theorem translate_eq {h : Heap α} {a : Nat} {s : Shell α} (hl : Live h a (.shell s)) (c v : Val α) :
    shellTranslate h 0 [c, handle a, v] = run h (vecArg v >>= fun o =>
      .ok (.ok (store h a (.shell (s.translate o))) [])) := by
  unfold shellTranslate; rw [shell1 hl]; rfl
theorem rotate_eq {h : Heap α} {a : Nat} {s : Shell α} (hl : Live h a (.shell s)) (c v : Val α)
    (x : α) : shellRotate h 0 [c, handle a, scalar x, v] = run h (vecArg v >>= fun o =>
      .ok (.ok (store h a (.shell (s.rotate x o))) [])) := by
  unfold shellRotate; rw [shell1 hl]; rfl
theorem transform_eq {h : Heap α} {a : Nat} {s : Shell α} (hl : Live h a (.shell s)) (c v : Val α) :
    shellTransform h 0 [c, handle a, v] = run h (poseArg v >>= fun o =>
      .ok (.ok (store h a (.shell (s.transform o))) [])) := by
  unfold shellTransform; rw [shell1 hl]; rfl
theorem setupFlat_eq (env : Env α) {h : Heap α} {a b : Nat} {s : Shell α} {g : Flat α}
    (hl : Live h a (.shell s)) (hg : Live h b (.flat g)) (c v : Val α) (m : List Char) :
    shellSetupFlat env h 1 [c, handle a, handle b, v, .chars m] = run h (poseArg v >>= fun o =>
      .ok (storeShell h a (fun r => [.bool r]) (s.setupFlat env.pol g o (String.ofList m)))) := by
  unfold shellSetupFlat; rw [shell1 hl, flat2 hg]; rfl
theorem setupMesh_eq (env : Env α) {h : Heap α} {a b : Nat} {s : Shell α} {g : Mesh α}
    (hl : Live h a (.shell s)) (hg : Live h b (.mesh g)) (c v : Val α) (m : List Char) :
    shellSetupMesh env h 1 [c, handle a, handle b, v, .chars m] = run h (poseArg v >>= fun o =>
      .ok (storeShell h a (fun r => [.bool r]) (s.setupMesh env.pol g o (String.ofList m)))) := by
  unfold shellSetupMesh; rw [shell1 hl, mesh2 hg]; rfl

end Mex

/-- C85: a `3x1` double vector is accepted as that vector, and a value with neither three rows nor one
column is refused with nothing changed, by every command that takes a vector. -/
theorem C85_vector_partial (env : Env α) (h : Heap α) (a : Nat) (x : α) :
    (∀ (f : Flat α) (w : V3 α), Live h a (.flat f) →
      Mex.call env .flat h 0 [.chars "setOrigin".toList, handle a, vec31 w] =
        .ok (h.set a (some (.flat ⟨⟨w, f.plane.normal⟩, f.friction⟩))) [] ∧
      Mex.call env .flat h 0 [.chars "setNormal".toList, handle a, vec31 w] =
        .ok (h.set a (some (.flat ⟨⟨f.plane.origin, w⟩, f.friction⟩))) []) ∧
    (∀ (s : Shell α) (w : V3 α), Live h a (.shell s) →
      Mex.call env .shell h 0 [.chars "translate".toList, handle a, vec31 w] =
        .ok (h.set a (some (.shell (s.translate w)))) [] ∧
      Mex.call env .shell h 0 [.chars "rotate".toList, handle a, scalar x, vec31 w] =
        .ok (h.set a (some (.shell (s.rotate x w)))) []) ∧
    (∀ (v : Val α) (o : Obj α), Live h a o → Misfit v 3 1 → ∀ c ∈ vectorCalls a x v,
      kindOf o = kindOfFile c.file → Rejects (Mex.call env c.file h c.nout c.args) h) := by
  refine ⟨fun f w hl => ⟨?_, ?_⟩, fun s w hl => ⟨?_, ?_⟩, fun v o hl hm => ?_⟩
  · exact call_table (f := flatSetOrigin) rfl (by rw [setOrigin_eq hl]; rfl) (by simp)
  · exact call_table (f := flatSetNormal) rfl (by rw [setNormal_eq hl]; rfl) (by simp)
  · exact call_table (f := shellTranslate) rfl (by rw [translate_eq hl]; rfl) (by simp)
  · exact call_table (f := shellRotate) rfl (by rw [rotate_eq hl]; rfl) (by simp)
  · obtain ⟨e, he⟩ := vecArg_misfit hm
    simp only [vectorCalls, List.forall_mem_cons]
    refine ⟨fun hk => rejects_call ⟨e, ?_⟩, fun hk => rejects_call ⟨e, ?_⟩,
      fun hk => rejects_call ⟨e, ?_⟩, fun hk => rejects_call ⟨e, ?_⟩, by simp⟩ <;>
    cases o <;> simp only [kindOf, kindOfFile, reduceCtorEq] at hk
    · show flatSetOrigin h 0 _ = _
      rw [setOrigin_eq hl, he]; rfl
    · show flatSetNormal h 0 _ = _
      rw [setNormal_eq hl, he]; rfl
    · show shellTranslate h 0 _ = _
      rw [translate_eq hl, he]; rfl
    · show shellRotate h 0 _ = _
      rw [rotate_eq hl, he]; rfl

/-- C85: a `4x4` double matrix is accepted as the pose in its first three rows, and a value with
neither four rows nor four columns is refused with nothing changed. -/
theorem C85_pose_partial (env : Env α) (h : Heap α) (a b : Nat) (m : List Char) (s : Shell α)
    (hl : Live h a (.shell s)) :
    (∀ (t : Affine α) (l0 l1 l2 l3 : α),
      Mex.call env .shell h 0 [.chars "transform".toList, handle a, mat44 t l0 l1 l2 l3] =
        .ok (h.set a (some (.shell (s.transform t)))) []) ∧
    (∀ (t : Affine α) (l0 l1 l2 l3 : α) (g : Flat α) (s' : Shell α) (r : Bool),
      Live h b (.flat g) → s.setupFlat env.pol g t (String.ofList m) = .ok s' r →
      Mex.call env .shell h 1
          [.chars "setupFlat".toList, handle a, handle b, mat44 t l0 l1 l2 l3, .chars m] =
        .ok (h.set a (some (.shell s'))) [.bool r]) ∧
    (∀ (t : Affine α) (l0 l1 l2 l3 : α) (g : Mesh α) (s' : Shell α) (r : Bool),
      Live h b (.mesh g) → s.setupMesh env.pol g t (String.ofList m) = .ok s' r →
      Mex.call env .shell h 1
          [.chars "setupMesh".toList, handle a, handle b, mat44 t l0 l1 l2 l3, .chars m] =
        .ok (h.set a (some (.shell s'))) [.bool r]) ∧
    (∀ v : Val α, Misfit v 4 4 → ∀ c ∈ poseCalls a b m v, GroundFits h b c →
      Rejects (Mex.call env c.file h c.nout c.args) h) := by
  refine ⟨fun t l0 l1 l2 l3 => ?_, fun t l0 l1 l2 l3 g s' r hg hs => ?_,
    fun t l0 l1 l2 l3 g s' r hg hs => ?_, fun v hm => ?_⟩
  · exact call_table (f := shellTransform) rfl (by rw [transform_eq hl]; rfl) (by simp)
  · exact call_table (f := shellSetupFlat env) rfl
      (by rw [setupFlat_eq env hl hg, poseArg_mat44, Res.bind_ok, hs]; rfl) (by simp)
  · exact call_table (f := shellSetupMesh env) rfl
      (by rw [setupMesh_eq env hl hg, poseArg_mat44, Res.bind_ok, hs]; rfl) (by simp)
  · obtain ⟨e, he⟩ := poseArg_misfit hm
    simp only [poseCalls, List.forall_mem_cons]
    refine ⟨fun hg => rejects_call ⟨e, ?_⟩, fun hg => rejects_call ⟨e, ?_⟩,
      fun hg => rejects_call ⟨e, ?_⟩, by simp⟩
    · show shellTransform h 0 _ = _
      rw [transform_eq hl, he]; rfl
    · obtain ⟨o, ho, hk⟩ := hg _ _ rfl rfl
      cases o <;> simp only [kindOf, reduceCtorEq] at hk
      show shellSetupFlat env h 1 _ = _
      rw [setupFlat_eq env hl ho, he]; rfl
    · obtain ⟨o, ho, hk⟩ := hg _ _ rfl rfl
      cases o <;> simp only [kindOf, reduceCtorEq] at hk
      show shellSetupMesh env h 1 _ = _
      rw [setupMesh_eq env hl ho, he]; rfl

/-- C85, exactly when a vector crashes the program: the value passes the test (three rows *or* one
column) and is not a double array or has fewer than three elements. -/
theorem C85_vector_crash (env : Env α) (h : Heap α) (a : Nat) (s : Shell α) (v : Val α)
    (hl : Live h a (.shell s)) (hp : Proper v) :
    (∃ w, Mex.call env .shell h 0 [.chars "translate".toList, handle a, v] = .ub w) ↔
      ∃ r c, v.dims = some (r, c) ∧ (r = 3 ∨ c = 1) ∧ (¬ IsDouble v r c ∨ r * c < 3) := by
  have hc : Mex.call env .shell h 0 [.chars "translate".toList, handle a, v] =
      match run h (vecArg v >>= fun o => .ok (.ok (store h a (.shell (s.translate o))) [])) with
      | .ok h' outs => if outs.length < 0 then
          .throw h' "One or more output arguments not assigned" else .ok h' outs
      | .throw h' e => .throw h' e
      | .ub w => .ub w := by
    rw [← translate_eq hl]; rfl
  rw [hc]
  have hub : (∃ w, vecArg v = .ub w) ↔
      ∃ r c, v.dims = some (r, c) ∧ (r = 3 ∨ c = 1) ∧ (¬ IsDouble v r c ∨ r * c < 3) := by
    match hd : v.dims with
    | none => simp [vecArg, matrix, hd]
    | some (r, c) =>
      simp only [Option.some.injEq, Prod.mk.injEq]
      by_cases hfit : r = 3 ∨ c = 1
      · have hch : check (decide (r = 3) || decide (c = 1)) "expected rows = 3 and cols = 1" =
            .ok () := by simp [check, hfit]
        simp only [vecArg, matrix, hd, Res.bind_ok, hch]
        match v, hd, hp with
        | .dbl r' c' d, hd, hp =>
          simp only [Val.dims, Option.some.injEq, Prod.mk.injEq] at hd
          obtain ⟨rfl, rfl⟩ := hd
          have hlen : d.length = r' * c' := hp
          have hdb : IsDouble (.dbl r' c' d) r' c' := ⟨d, rfl⟩
          have hR : (∃ r c, (r' = r ∧ c' = c) ∧ (r = 3 ∨ c = 1) ∧
              (¬ IsDouble (.dbl r' c' d) r c ∨ r * c < 3)) ↔ d.length < 3 := by
            constructor
            · rintro ⟨_, _, ⟨rfl, rfl⟩, _, h | h⟩
              · exact absurd hdb h
              · omega
            · intro h
              exact ⟨_, _, ⟨rfl, rfl⟩, hfit, .inr (by omega)⟩
          rw [hR]
          simp only [Val.pr]
          match d with
          | [] => simp [elem]
          | [x] => simp [elem]
          | [x, y] => simp [elem]
          | x :: y :: z :: _ => simp [elem]
        | .int cl r' c' d, hd, _ =>
          simp only [Val.pr, elem, Res.bind_ub]
          exact ⟨fun _ => ⟨r, c, ⟨rfl, rfl⟩, hfit, .inl (by rintro ⟨_, h⟩; cases h)⟩,
            fun _ => ⟨_, rfl⟩⟩
        | .chars l, hd, _ =>
          simp only [Val.pr, elem, Res.bind_ub]
          exact ⟨fun _ => ⟨r, c, ⟨rfl, rfl⟩, hfit, .inl (by rintro ⟨_, h⟩; cases h)⟩,
            fun _ => ⟨_, rfl⟩⟩
        | .bool l, hd, _ =>
          simp only [Val.pr, elem, Res.bind_ub]
          exact ⟨fun _ => ⟨r, c, ⟨rfl, rfl⟩, hfit, .inl (by rintro ⟨_, h⟩; cases h)⟩,
            fun _ => ⟨_, rfl⟩⟩
        | .cell r' c', hd, _ =>
          simp only [Val.pr, elem, Res.bind_ub]
          exact ⟨fun _ => ⟨r, c, ⟨rfl, rfl⟩, hfit, .inl (by rintro ⟨_, h⟩; cases h)⟩,
            fun _ => ⟨_, rfl⟩⟩
        | .nd, hd, _ => simp [Val.dims] at hd
      · have hch : check (decide (r = 3) || decide (c = 1)) "expected rows = 3 and cols = 1" =
            .throw "expected rows = 3 and cols = 1" := by
          simp only [not_or] at hfit; simp [check, hfit]
        simp only [vecArg, matrix, hd, Res.bind_ok, hch, Res.bind_throw]
        constructor
        · rintro ⟨w, hw⟩; cases hw
        · rintro ⟨_, _, ⟨rfl, rfl⟩, h, _⟩; exact absurd h hfit
  rw [← hub]
  cases vecArg v with
  | ok o => simp [run]
  | throw e => simp [run]
  | ub w => simp [run]

/-- C85 fails: the tests ask for three rows *or* one column (four rows *or* four columns), so a scalar
passes as a vector and a `4x1` vector as a pose, and both crash the program; a `3x2` matrix is taken
for its first column and a `4x5` matrix for its first four columns. -/
theorem C85_refuted (env : Env α) (h : Heap α) (a : Nat) (s : Shell α) (hl : Live h a (.shell s))
    (x : α) (v w : V3 α) (t : Affine α) :
    (∃ u, Mex.call env .shell h 0 [.chars "translate".toList, handle a, scalar x] = .ub u) ∧
    (∃ u, Mex.call env .shell h 0
      [.chars "transform".toList, handle a, .dbl 4 1 [x, x, x, x]] = .ub u) ∧
    Mex.call env .shell h 0
        [.chars "translate".toList, handle a, .dbl 3 2 [v.x, v.y, v.z, w.x, w.y, w.z]] =
      .ok (h.set a (some (.shell (s.translate v)))) [] ∧
    Mex.call env .shell h 0 [.chars "transform".toList, handle a, .dbl 4 5 [
        t.linear.c0.x, t.linear.c0.y, t.linear.c0.z, x, t.linear.c1.x, t.linear.c1.y, t.linear.c1.z, x,
        t.linear.c2.x, t.linear.c2.y, t.linear.c2.z, x, t.trans.x, t.trans.y, t.trans.z, x,
        x, x, x, x]] =
      .ok (h.set a (some (.shell (s.transform t)))) [] := by
  have hx : ∀ v, Mex.mexFunction env .shell h 0 [.chars "translate".toList, handle a, v] = _ :=
    fun v => translate_eq hl (.chars "translate".toList) v
  have hy : ∀ v, Mex.mexFunction env .shell h 0 [.chars "transform".toList, handle a, v] = _ :=
    fun v => transform_eq hl (.chars "transform".toList) v
  refine ⟨⟨"matrix_ptr[k] out of range", ?_⟩, ⟨"matrix_ptr[k] out of range", ?_⟩, ?_, ?_⟩ <;>
    unfold Mex.call
  · rw [hx]; rfl
  · rw [hy]; rfl
  · rw [hx]; rfl
  · rw [hy]; rfl

/-! ## The hypotheses are met -/

section Demo

/-- A script that makes a mesh and a ground, asks for a command that does not exist, asks for the number
of triangles and deletes the mesh. -/
private def demoScript : List (Call α) := [
  ⟨.mesh, 1, [.chars "new".toList]⟩,
  ⟨.triangleground, 1, [.chars "colour".toList, handle 0]⟩,
  ⟨.mesh, 1, [.chars "size".toList, handle 0]⟩,
  ⟨.mesh, 1, [.chars "new".toList]⟩,
  ⟨.mesh, 0, [.chars "delete".toList, handle 1]⟩]

private theorem demoSession (env : Env α) :
    Session env [] demoScript [some (.mesh Mesh.empty), none] :=
  .cons (h' := [some (.mesh Mesh.empty)]) (.inl ⟨_, rfl⟩) <| .cons (.inr ⟨_, rfl⟩) <|
    .cons (.inl ⟨_, rfl⟩) <|
    .cons (h' := [some (.mesh Mesh.empty), some (.mesh Mesh.empty)]) (.inl ⟨_, rfl⟩) <|
    .cons (.inl ⟨_, rfl⟩) (.nil _)

example (env : Env α) : ∃ o : Obj α, ([some (.mesh Mesh.empty), none] : Heap α)[0]? = some (some o) ∧
    Session env [some o] (demoScript.drop 1) [some (.mesh Mesh.empty), none] ∧
    ∀ c ∈ (demoScript (α := α)).drop 1, c.Proper ∧ ¬ c.Touches 0 := by
  refine ⟨.mesh Mesh.empty, rfl, ?_, ?_⟩
  · have := demoSession env
    cases this with
    | cons hl ht =>
      rcases hl with ⟨v, hv⟩ | ⟨e, he⟩
      · cases hv; exact ht
      · cases he
  · simp [demoScript, Call.Proper, MexSpec.Proper, Call.Touches, nameOf, mutators, handle, InRange]

example : WrongFor [some (.mesh (Mesh.empty : Mesh α)), some (.point V3.nan)] .flat (handle 0) :=
  .inr ⟨0, _, rfl, rfl, by simp [kindOf]⟩

example (x : α) : WrongFor [] .mesh (scalar x) := .inl (by simp [scalar, handle])

example (x : α) : Misfit (.dbl 1 3 [x, x, x]) 3 1 ∧ Misfit (.dbl 3 3 [x, x, x, x, x, x, x, x, x]) 4 4 := by
  simp [Misfit, Val.dims]

end Demo

end Enve
