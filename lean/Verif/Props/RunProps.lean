import Verif.Props.SfunProps
import Verif.Props.SearchProps

/-! # The block from start to end: initialisation (C63), a run of many steps (C64), no failures (C65) -/

namespace Enve
open Scalar Spec

variable {α : Type} [Scalar α]

/-! ## C64: the result of a step depends on its input only -/

/-- The input of one step of the block: hub pose, method selector, ground selector. -/
structure Spec.StepInput (α : Type) where
  hub : Affine α
  method : α
  sel : α

/-- The block of the simulation: steps one after the other, each on the shell left by the one before. -/
def Spec.run (pol : Policy) (mesh : Mesh α) (flat : Flat α) : Shell α → List (StepInput α) → Res (List (OutputBus α))
  | _, [] => .ok []
  | s, x :: xs =>
    match Sfun.out pol mesh flat s x.hub x.method x.sel with
    | .ok s' bus => do
      let buses ← run pol mesh flat s' xs
      return bus :: buses
    | .throw _ e => .throw e
    | .ub w => .ub w

omit [Scalar α] in
theorem Shell.readFrom_congr {pol : Policy} {v w : RecVec α} {k i : Nat}
    (h : ∀ j, i ≤ j → j < i + k → v.read pol j = w.read pol j) :
    Shell.readFrom pol v k i = Shell.readFrom pol w k i := by
  induction k generalizing i with
  | zero => rfl
  | succ k ih =>
    rw [Shell.readFrom, Shell.readFrom, h i le_rfl (by omega), ih fun j h1 h2 => h j (by omega) (by omega)]

theorem Sfun.slots_congr {pol : Policy} {s s' : Shell α} (h : ∀ i, Sfun.ribSlot pol s i = Sfun.ribSlot pol s' i)
    (k i : Nat) : Sfun.slots pol s k i = Sfun.slots pol s' k i := by
  induction k generalizing i with
  | zero => rfl
  | succ k ih => rw [Sfun.slots, Sfun.slots, h, ih]

/-- The bus is a function of the pose, the number of ribs and their records. -/
theorem Sfun.fillBus_congr {pol : Policy} {s s' : Shell α} (hp : s.pose = s'.pose) (hr : s.ribs = s'.ribs)
    (ho : ∀ i < s.size, s.out.read pol i = s'.out.read pol i) (b : Bool) :
    Sfun.fillBus pol s b = Sfun.fillBus pol s' b := by
  have hsz : s.size = s'.size := by simp only [Shell.size, hr]
  have hrec : s.records pol = s'.records pol := by
    unfold Shell.records
    rw [← hsz]
    exact Shell.readFrom_congr fun j _ h2 => ho j (by omega)
  have hvol : s.contactVolume pol = s'.contactVolume pol := by unfold Shell.contactVolume; rw [hrec]
  have hpt : s.contactPoint pol = s'.contactPoint pol := by unfold Shell.contactPoint; rw [hvol, hrec, hsz]
  have hnm : s.contactNormal pol = s'.contactNormal pol := by unfold Shell.contactNormal; rw [hvol, hrec, hsz]
  have haf : s.contactPointAffine pol = s'.contactPointAffine pol := by
    unfold Shell.contactPointAffine Shell.yAxis; rw [hpt, hnm, hp]
  have hd : s.contactDepth pol = s'.contactDepth pol := by unfold Shell.contactDepth; rw [hvol, hrec, hsz]
  have hf : s.contactFriction pol = s'.contactFriction pol := by unfold Shell.contactFriction; rw [hvol, hrec, hsz]
  have hslot : ∀ i, Sfun.ribSlot pol s i = Sfun.ribSlot pol s' i := by
    intro i
    unfold Sfun.ribSlot
    rw [← hsz]
    split
    · rename_i hi
      unfold Shell.contactPointAffineAt Shell.contactDepthAt Shell.contactFrictionAt Shell.yAxis
      rw [ho i hi, hp]
    · rfl
  unfold Sfun.fillBus
  rw [haf, hd, hf, Sfun.slots_congr hslot]

/-- Two outcomes of a step show the same: the same bus, or the same error, or both undefined behaviour. -/
def Spec.SameStep : MRes (Shell α) (OutputBus α) → MRes (Shell α) (OutputBus α) → Prop
  | .ok _ b, .ok _ b' => b = b'
  | .throw _ e, .throw _ e' => e = e'
  | .ub _, .ub _ => True
  | _, _ => False

theorem Sfun.finish_congr {pol : Policy} {s s' : Shell α} (hs : s.Reachable pol) (hs' : s'.Reachable pol)
    (hp : s.pose = s'.pose) (hr : s.ribs = s'.ribs) (ho : ∀ i < s.size, s.out.mem i = s'.out.mem i) (b : Bool) :
    SameStep (Sfun.finish pol s b) (Sfun.finish pol s' b) := by
  have hread : ∀ i < s.size, s.out.read pol i = s'.out.read pol i := by
    intro i hi
    unfold RecVec.read RecVec.accessible
    rw [hs.inv.out_size, hs.inv.out_cap, hs'.inv.out_size, hs'.inv.out_cap, ho i hi]
  unfold Sfun.finish
  rw [← Sfun.fillBus_congr hp hr hread b]
  cases Sfun.fillBus pol s b <;> simp [SameStep]

/-- A step on two shells with the same shape and ribs. -/
theorem Sfun.out_congr {pol : Policy} {mesh : Mesh α} {flat : Flat α} {s1 s2 : Shell α} (h1 : s1.Reachable pol)
    (h2 : s2.Reachable pol) (hshape : s1.shape = s2.shape) (hribs : s1.ribs = s2.ribs) (hub : Affine α)
    (method sel : α) :
    SameStep (Sfun.out pol mesh flat s1 hub method sel) (Sfun.out pol mesh flat s2 hub method sel) := by
  have hsz1 : ∀ {s s' : Shell α}, s'.ribs = s.ribs → s'.size = s.size := by
    intro s s' h; simp only [Shell.size, h]
  -- the flat ground on two such shells
  have hflat : ∀ (s1 s2 : Shell α) (name : String) (b : Bool), s1.Reachable pol → s2.Reachable pol →
      s1.shape = s2.shape → s1.ribs = s2.ribs →
      SameStep (match s1.setupFlat pol flat hub name with
        | .throw s m => .throw s m | .ub w => .ub w | .ok s _ => Sfun.finish pol s b)
        (match s2.setupFlat pol flat hub name with
        | .throw s m => .throw s m | .ub w => .ub w | .ok s _ => Sfun.finish pol s b) := by
    intro s1 s2 name b h1 h2 hshape hribs
    have := (C40_history_independent pol s1 s2 h1 h2 hshape hribs hub name).2 flat
    cases e1 : s1.setupFlat pol flat hub name with
    | ok t1 b1 =>
      cases e2 : s2.setupFlat pol flat hub name with
      | ok t2 b2 =>
        rw [e1, e2] at this
        obtain ⟨-, k2, -, -, k5, k6⟩ := this
        have r1 := (Shell.setupFlat_rel (.inl ⟨b1, e1⟩)).ribs
        exact Sfun.finish_congr (.setupFlat h1 (.inl e1)) (.setupFlat h2 (.inl e2)) k2 k5
          (fun i hi => k6 i (by rw [← hsz1 r1]; exact hi)) b
      | throw _ _ => rw [e1, e2] at this; exact this.elim
      | ub _ => rw [e1, e2] at this; exact this.elim
    | throw t1 m1 =>
      cases e2 : s2.setupFlat pol flat hub name with
      | ok _ _ => rw [e1, e2] at this; exact this.elim
      | throw _ _ => rw [e1, e2] at this; exact this.1
      | ub _ => rw [e1, e2] at this; exact this.elim
    | ub w =>
      cases e2 : s2.setupFlat pol flat hub name with
      | ok _ _ => rw [e1, e2] at this; exact this.elim
      | throw _ _ => rw [e1, e2] at this; exact this.elim
      | ub _ => exact trivial
  unfold Sfun.out
  cases Sfun.methodName method with
  | throw m => exact rfl
  | ub w => exact trivial
  | ok name =>
    dsimp only
    split
    · have := (C40_history_independent pol s1 s2 h1 h2 hshape hribs hub name).1 mesh
      cases e1 : s1.setupMesh pol mesh hub name with
      | ok t1 b1 =>
        cases e2 : s2.setupMesh pol mesh hub name with
        | ok t2 b2 =>
          rw [e1, e2] at this
          obtain ⟨rfl, k2, -, k4, k5, k6⟩ := this
          have r1 := (Shell.setupMesh_rel (.inl ⟨b1, e1⟩)).ribs
          cases b1 with
          | true =>
            exact Sfun.finish_congr (.setupMesh h1 (.inl e1)) (.setupMesh h2 (.inl e2)) k2 k5
              (fun i hi => k6 i (by rw [← hsz1 r1]; exact hi)) true
          | false => exact hflat t1 t2 name false (.setupMesh h1 (.inl e1)) (.setupMesh h2 (.inl e2)) k4 k5
        | throw _ _ => rw [e1, e2] at this; exact this.elim
        | ub _ => rw [e1, e2] at this; exact this.elim
      | throw t1 m1 =>
        cases e2 : s2.setupMesh pol mesh hub name with
        | ok _ _ => rw [e1, e2] at this; exact this.elim
        | throw _ _ => rw [e1, e2] at this; exact this.1
        | ub _ => rw [e1, e2] at this; exact this.elim
      | ub w =>
        cases e2 : s2.setupMesh pol mesh hub name with
        | ok _ _ => rw [e1, e2] at this; exact this.elim
        | throw _ _ => rw [e1, e2] at this; exact this.elim
        | ub _ => exact trivial
    · split
      · exact hflat s1 s2 name true h1 h2 hshape hribs
      · exact rfl

/-- A step leaves the shape and the ribs alone. -/
theorem Sfun.out_keeps {pol : Policy} {mesh : Mesh α} {flat : Flat α} {s s' : Shell α} (hs : s.Reachable pol)
    {hub : Affine α} {method sel : α} {bus : OutputBus α} (h : Sfun.out pol mesh flat s hub method sel = .ok s' bus) :
    s'.Reachable pol ∧ s'.shape = s.shape ∧ s'.ribs = s.ribs := by
  obtain ⟨name, -, -, h⟩ := C54_bus h
  rcases h with ⟨-, -, h⟩ | ⟨-, -, s1, b, h1, h2⟩ | ⟨-, -, -, b, h⟩
  · have := Shell.setupMesh_rel (.inl ⟨_, h⟩)
    exact ⟨.setupMesh hs (.inl h), this.shape, this.ribs⟩
  · have k1 := Shell.setupMesh_rel (.inl ⟨_, h1⟩)
    have k2 := Shell.setupFlat_rel (.inl ⟨_, h2⟩)
    exact ⟨.setupFlat (.setupMesh hs (.inl h1)) (.inl h2), k2.shape.trans k1.shape, k2.ribs.trans k1.ribs⟩
  · have := Shell.setupFlat_rel (.inl ⟨_, h⟩)
    exact ⟨.setupFlat hs (.inl h), this.shape, this.ribs⟩

/-- **C64** (scalars of any kind).  In a run of any length, the bus of every step is the bus that a single step with
the same input gives on the shell the run started with: what came before has no influence.  And the run completes exactly
if every one of its inputs, taken alone, does. -/
theorem C64_run (pol : Policy) (mesh : Mesh α) (flat : Flat α) (s : Shell α) (hs : s.Reachable pol)
    (xs : List (StepInput α)) (buses : List (OutputBus α)) :
    run pol mesh flat s xs = .ok buses ↔
      List.Forall₂ (fun x bus => ∃ s', Sfun.out pol mesh flat s x.hub x.method x.sel = .ok s' bus) xs buses := by
  -- along the run the shell keeps its shape and ribs
  have key : ∀ (xs : List (StepInput α)) (t : Shell α) (buses : List (OutputBus α)), t.Reachable pol → t.shape = s.shape →
      t.ribs = s.ribs → (run pol mesh flat t xs = .ok buses ↔
        List.Forall₂ (fun x bus => ∃ s', Sfun.out pol mesh flat s x.hub x.method x.sel = .ok s' bus) xs buses) := by
    intro xs
    induction xs with
    | nil =>
      intro t buses _ _ _
      rw [run, List.forall₂_nil_left_iff]
      constructor
      · intro h; exact (Res.ok.inj h).symm
      · intro h; rw [h]
    | cons x xs ih =>
      intro t buses ht h1 h2
      have hsame := Sfun.out_congr (mesh := mesh) (flat := flat) ht hs h1 h2 x.hub x.method x.sel
      rw [run, List.forall₂_cons_left_iff]
      cases e : Sfun.out pol mesh flat t x.hub x.method x.sel with
      | ok t' bus =>
        obtain ⟨k1, k2, k3⟩ := Sfun.out_keeps ht e
        dsimp only
        cases e' : Sfun.out pol mesh flat s x.hub x.method x.sel with
        | ok s' bus' =>
          rw [e, e'] at hsame
          have hsame : bus = bus' := hsame
          subst hsame
          rw [Res.bind_eq_ok]
          constructor
          · rintro ⟨bs, hb, hp⟩
            exact ⟨bus, bs, ⟨s', rfl⟩, (ih t' bs k1 (k2.trans h1) (k3.trans h2)).1 hb, (Res.ok.inj hp).symm⟩
          · rintro ⟨b, bs, ⟨s'', hb⟩, hall, rfl⟩
            cases hb
            exact ⟨bs, (ih t' bs k1 (k2.trans h1) (k3.trans h2)).2 hall, rfl⟩
        | throw _ _ => rw [e, e'] at hsame; exact hsame.elim
        | ub _ => rw [e, e'] at hsame; exact hsame.elim
      | throw t' m =>
        dsimp only
        constructor
        · intro h; cases h
        · rintro ⟨b, bs, ⟨s'', hb⟩, -⟩
          rw [e, hb] at hsame
          exact hsame.elim
      | ub w =>
        dsimp only
        constructor
        · intro h; cases h
        · rintro ⟨b, bs, ⟨s'', hb⟩, -⟩
          rw [e, hb] at hsame
          exact hsame.elim
  exact key xs s buses hs rfl rfl

/-! ## C63: initialisation -/

/-- The ground file named by the environment is an RDF or an OBJ file and holds `mesh` (friction 1 for OBJ). -/
def Spec.GroundFile (np : NumParse α) (path : List Char) (file : Option (List (List Char))) (mesh : Mesh α) : Prop :=
  (∃ stem, path = stem ++ ".rdf".toList ∧ Mesh.ofRdf np path file Affine.id = .ok mesh) ∨
  (∃ stem, path = stem ++ ".obj".toList ∧ Mesh.ofObj np path file one Affine.id = .ok mesh)

theorem Mesh.extension_eq {path ext : List Char} (he : ext.length = 4) :
    Mesh.extension path = .ok ext ↔ ∃ stem, path = stem ++ ext := by
  unfold Mesh.extension
  constructor
  · intro h
    split at h
    · cases h
    · exact ⟨path.take (path.length - 4), by rw [← Res.ok.inj h, List.take_append_drop]⟩
  · rintro ⟨stem, rfl⟩
    rw [if_neg (by simp [he])]
    simp [he]

theorem Sfun.init_ok {np : NumParse α} {fresh : Nat → Output α} {path : Option (List Char)}
    {file : Option (List (List Char))} {n : Nat} {rx mx ry my ly h f : α} {mesh : Mesh α} {flat : Flat α}
    {shell : Shell α} :
    Sfun.init np fresh path file n rx mx ry my ly h f = .ok (mesh, flat, shell) ↔
      (∃ p, path = some p ∧ GroundFile np p file mesh) ∧ Flat.make f ⟨zero, zero, h⟩ V3.ez = .ok flat ∧
        Shell.make fresh n rx mx ry my ly = .ok shell := by
  have e1 : (".rdf".toList).length = 4 := rfl
  have e2 : (".obj".toList).length = 4 := rfl
  unfold Sfun.init
  cases path with
  | none => simp
  | some p =>
    simp only [Option.some.injEq, exists_eq_left']
    constructor
    · intro hr
      obtain ⟨ext, hext, hr⟩ := Res.bind_eq_ok.1 hr
      split at hr
      · rename_i hx
        subst hx
        simp only [Res.bind_eq_ok, Res.pure_eq, Res.ok.injEq, Prod.mk.injEq] at hr
        obtain ⟨m, hm, fl, hfl, sh, hsh, rfl, rfl, rfl⟩ := hr
        obtain ⟨stem, hs⟩ := (Mesh.extension_eq e1).1 hext
        exact ⟨.inl ⟨stem, hs, hm⟩, hfl, hsh⟩
      · split at hr
        · rename_i hx
          subst hx
          simp only [Res.bind_eq_ok, Res.pure_eq, Res.ok.injEq, Prod.mk.injEq] at hr
          obtain ⟨m, hm, fl, hfl, sh, hsh, rfl, rfl, rfl⟩ := hr
          obtain ⟨stem, hs⟩ := (Mesh.extension_eq e2).1 hext
          exact ⟨.inr ⟨stem, hs, hm⟩, hfl, hsh⟩
        · cases hr
    · rintro ⟨hg, hfl, hsh⟩
      rcases hg with ⟨stem, hs, hm⟩ | ⟨stem, hs, hm⟩
      · rw [(Mesh.extension_eq e1).2 ⟨stem, hs⟩, Res.bind_ok, if_pos rfl, hm, hfl, hsh]; rfl
      · rw [(Mesh.extension_eq e2).2 ⟨stem, hs⟩, Res.bind_ok, if_neg (by decide), if_pos rfl, hm, hfl, hsh]; rfl

/-- **C63** (scalars of any kind).  Without the environment variable, or with a path that ends neither in `.rdf` nor in
`.obj`, initialisation throws. -/
theorem C63_no_ground_file (np : NumParse α) (fresh : Nat → Output α) (path : Option (List Char))
    (file : Option (List (List Char))) (n : Nat) (rx mx ry my ly h f : α)
    (hp : ∀ stem, path ≠ some (stem ++ ".rdf".toList) ∧ path ≠ some (stem ++ ".obj".toList)) :
    ∃ e, Sfun.init np fresh path file n rx mx ry my ly h f = .throw e := by
  have e1 : (".rdf".toList).length = 4 := rfl
  have e2 : (".obj".toList).length = 4 := rfl
  unfold Sfun.init
  cases path with
  | none => exact ⟨_, rfl⟩
  | some p =>
    dsimp only
    cases hext : Mesh.extension p with
    | ok ext =>
      have n1 : ext ≠ ".rdf".toList := by
        rintro rfl
        obtain ⟨stem, hs⟩ := (Mesh.extension_eq e1).1 hext
        exact (hp stem).1 (congrArg some hs)
      have n2 : ext ≠ ".obj".toList := by
        rintro rfl
        obtain ⟨stem, hs⟩ := (Mesh.extension_eq e2).1 hext
        exact (hp stem).2 (congrArg some hs)
      simp only [Res.bind_ok, if_neg n1, if_neg n2, Res.bind_throw]
      exact ⟨_, rfl⟩
    | throw e => exact ⟨e, rfl⟩
    | ub w => unfold Mesh.extension at hext; split at hext <;> cases hext

/-- **C63.**  For a valid tyre shape and a positive number of ribs, initialisation succeeds exactly if the ground file
named by the environment can be loaded and the friction of the flat ground is not negative.  It then delivers the
nonempty mesh of that file, the horizontal plane at the given height with the given friction, and a shell with that
shape and number of ribs at the identity pose. -/
theorem C63_init (np : NumParse ℝ) (fresh : Nat → Output ℝ) (path : Option (List Char))
    (file : Option (List (List Char))) (n : Nat) (hn : 1 ≤ n) (rx mx ry my ly h f : ℝ)
    (hv : ValidProfile rx mx ry my ly) :
    ((∃ r, Sfun.init np fresh path file n rx mx ry my ly h f = .ok r) ↔
      0 ≤ f ∧ ∃ p mesh, path = some p ∧ GroundFile np p file mesh) ∧
    ∀ mesh flat shell, Sfun.init np fresh path file n rx mx ry my ly h f = .ok (mesh, flat, shell) →
      (∃ p, path = some p ∧ GroundFile np p file mesh) ∧ mesh.triangles ≠ [] ∧
      flat.plane.origin = ⟨0, 0, h⟩ ∧ flat.normal = ⟨0, 0, 1⟩ ∧ flat.friction = f ∧
      shell.size = n ∧ shell.shape = ⟨rx, mx, ry, my, ly⟩ ∧ shell.pose = Affine.id ∧ ∀ pol, shell.Reachable pol := by
  obtain ⟨s, hs, hs1, hs2, hs3, -⟩ := C04_construct fresh n hn rx mx ry my ly hv
  constructor
  · constructor
    · rintro ⟨⟨mesh, flat, shell⟩, hr⟩
      obtain ⟨⟨p, hp, hg⟩, hfl, -⟩ := Sfun.init_ok.1 hr
      have := ((C25_flat_friction f ⟨zero, zero, h⟩ V3.ez).1.1 ⟨_, hfl⟩).1
      exact ⟨by simpa using this, p, mesh, hp, hg⟩
    · rintro ⟨hf, p, mesh, hp, hg⟩
      obtain ⟨g, hgg⟩ := (C25_flat_friction f ⟨zero, zero, h⟩ V3.ez).1.2 ⟨by simpa using hf, by simp [V3.ez]⟩
      exact ⟨(mesh, g, s), Sfun.init_ok.2 ⟨⟨p, hp, hg⟩, hgg, hs⟩⟩
  · intro mesh flat shell hr
    obtain ⟨⟨p, hp, hg⟩, hfl, hsh⟩ := Sfun.init_ok.1 hr
    rw [hs] at hsh
    cases Res.ok.inj hsh
    obtain ⟨k1, k2, ⟨k, k3, k4⟩, k5⟩ := C26_flat_normal f _ _ flat hfl
    refine ⟨⟨p, hp, hg⟩, ?_, by simpa using k5, ?_, ((C25_flat_friction f _ _).2.2 flat hfl).1, hs1, hs3, hs2,
      fun pol => .make hs⟩
    · rcases hg with ⟨stem, -, hm⟩ | ⟨stem, -, hm⟩
      · exact (Mesh.Loaded.consistent (np := np) (.inl ⟨_, _, _, hm⟩)).2
      · exact (Mesh.Loaded.consistent (np := np) (.inr ⟨_, _, _, _, hm⟩)).2
    · rw [k4] at k1 ⊢
      simp only [V3.ez, real_zero, real_one, mul_zero, mul_one] at k1 ⊢
      have : k = 1 := by
        simp only [length3] at k1
        have h2 : Real.sqrt (k ^ 2) = 1 := by rw [← k1]; congr 1; ring
        rwa [Real.sqrt_sq k3.le] at h2
      rw [this]

theorem Affine.id_apply (p : V3 ℝ) : (Affine.id : Affine ℝ).apply p = p := by
  obtain ⟨x, y, z⟩ := p
  unfold Affine.apply Affine.id
  v3
  simp

/-- **C63.**  A well formed RDF file: initialisation succeeds, and the mesh has one triangle per element of the file, in
order, with the nodes it names as vertices and the listed friction. -/
theorem C63_init_rdf (np : NumParse ℝ) (fresh : Nat → Output ℝ) (stem : List Char) (lines : List (List Char))
    (n : Nat) (hn : 1 ≤ n) (rx mx ry my ly h f : ℝ) (hv : ValidProfile rx mx ry my ly) (hf : 0 ≤ f)
    (nodes : List (ℝ × ℝ × ℝ)) (elements : List (Nat × Nat × Nat × ℝ))
    (hfile : RdfText np.stod np.stoi (fun f => 0 ≤ f) lines nodes elements) :
    ∃ mesh flat shell, Sfun.init np fresh (some (stem ++ ".rdf".toList)) (some lines) n rx mx ry my ly h f =
        .ok (mesh, flat, shell) ∧ mesh.triangles.length = elements.length ∧
      ∀ (m i j k : Nat) (g : ℝ), elements[m]? = some (i, j, k, g) →
        ∃ t p q r, mesh.triangles[m]? = some t ∧ nodes[i]? = some p ∧ nodes[j]? = some q ∧ nodes[k]? = some r ∧
          t.id = m ∧ t.friction = g ∧ t.tri = ⟨⟨p.1, p.2.1, p.2.2⟩, ⟨q.1, q.2.1, q.2.2⟩, ⟨r.1, r.2.1, r.2.2⟩⟩ := by
  have e : (fun f : ℝ => 0 ≤ f) = fun f => (zero <=. f) = true := by funext x; simp
  rw [e] at hfile
  obtain ⟨mesh, -, h1, h2, h3⟩ := C19_rdf_load np stem lines Affine.id nodes elements hfile
  obtain ⟨⟨m', flat, shell⟩, hr⟩ := (C63_init np fresh (some (stem ++ ".rdf".toList)) (some lines) n hn rx mx ry my ly h f
    hv).1.2 ⟨hf, _, mesh, rfl, .inl ⟨stem, rfl, h1⟩⟩
  obtain ⟨⟨p, hp, hg⟩, hfl, hsh⟩ := Sfun.init_ok.1 hr
  refine ⟨mesh, flat, shell, Sfun.init_ok.2 ⟨⟨_, rfl, .inl ⟨stem, rfl, h1⟩⟩, hfl, hsh⟩, h2, fun m i j k g hm => ?_⟩
  obtain ⟨t, p, q, r, a1, a2, a3, a4, a5, a6, a7, a8, a9⟩ := h3 m i j k g hm
  rw [Affine.id_apply] at a7 a8 a9
  refine ⟨t, p, q, r, a1, a2, a3, a4, a5, a6, ?_⟩
  rw [← a7, ← a8, ← a9]

/-- **C63.**  The same for an OBJ file; all triangles have friction 1. -/
theorem C63_init_obj (np : NumParse ℝ) (fresh : Nat → Output ℝ) (stem : List Char) (lines : List (List Char))
    (n : Nat) (hn : 1 ≤ n) (rx mx ry my ly h f : ℝ) (hv : ValidProfile rx mx ry my ly) (hf : 0 ≤ f)
    (vertices : List (ℝ × ℝ × ℝ)) (faces : List (Nat × Nat × Nat)) (hne : faces ≠ [])
    (hfile : ObjReads np.stod np.stoi .init lines ⟨vertices, faces⟩) :
    ∃ mesh flat shell, Sfun.init np fresh (some (stem ++ ".obj".toList)) (some lines) n rx mx ry my ly h f =
        .ok (mesh, flat, shell) ∧ mesh.triangles.length = faces.length ∧
      ∀ (m i j k : Nat), faces[m]? = some (i, j, k) →
        ∃ t p q r, mesh.triangles[m]? = some t ∧ vertices[i - 1]? = some p ∧ vertices[j - 1]? = some q ∧
          vertices[k - 1]? = some r ∧ t.id = m ∧ t.friction = 1 ∧
          t.tri = ⟨⟨p.1, p.2.1, p.2.2⟩, ⟨q.1, q.2.1, q.2.2⟩, ⟨r.1, r.2.1, r.2.2⟩⟩ := by
  obtain ⟨mesh, h1, h2, h3⟩ := C20_obj_load np Mesh.empty rfl stem lines one Affine.id vertices faces (by simp) hne hfile
  have h1 : Mesh.ofObj np (stem ++ ".obj".toList) (some lines) one Affine.id = .ok mesh := by
    rw [Mesh.ofObj, h1]; rfl
  obtain ⟨⟨m', flat, shell⟩, hr⟩ := (C63_init np fresh (some (stem ++ ".obj".toList)) (some lines) n hn rx mx ry my ly h f
    hv).1.2 ⟨hf, _, mesh, rfl, .inr ⟨stem, rfl, h1⟩⟩
  obtain ⟨⟨p, hp, hg⟩, hfl, hsh⟩ := Sfun.init_ok.1 hr
  refine ⟨mesh, flat, shell, Sfun.init_ok.2 ⟨⟨_, rfl, .inr ⟨stem, rfl, h1⟩⟩, hfl, hsh⟩, h2, fun m i j k hm => ?_⟩
  obtain ⟨t, p, q, r, a1, a2, a3, a4, a5, a6, a7, a8, a9⟩ := h3 m i j k hm
  rw [Affine.id_apply] at a7 a8 a9
  refine ⟨t, p, q, r, a1, a2, a3, a4, a5, by simpa using a6, ?_⟩
  rw [← a7, ← a8, ← a9]

/-- C63: the demonstration files are well formed. -/
example (fresh : Nat → Output ℝ) : ∃ mesh flat shell, Sfun.init demoNum fresh (some "a.rdf".toList)
    (some (demoPrefix ++ ["0 1 2 1".toList])) 1 1 2 2 2 1 0 1 = .ok (mesh, flat, shell) ∧ mesh.triangles.length = 1 := by
  have e : (fun f : ℝ => 0 ≤ f) = fun f => (zero <=. f) = true := by funext x; simp
  obtain ⟨m, fl, s, h1, h2, -⟩ := C63_init_rdf demoNum fresh "a".toList _ 1 le_rfl 1 2 2 2 1 0 1
    ⟨by norm_num, by norm_num, by norm_num, by norm_num, by norm_num, by norm_num⟩ (by norm_num) _ _
    (by rw [e]; exact demo_rdfText)
  exact ⟨m, fl, s, h1, h2⟩

example (fresh : Nat → Output ℝ) : ∃ mesh flat shell, Sfun.init demoNum fresh (some "a.obj".toList)
    (some ["v 0 0 0".toList, "v 1 0 0".toList, "v 0 1 0".toList, "".toList, "f 1 2 3".toList]) 1 1 2 2 2 1 0 1 =
      .ok (mesh, flat, shell) ∧ mesh.triangles.length = 1 := by
  obtain ⟨m, fl, s, h1, h2, -⟩ := C63_init_obj demoNum fresh "a".toList _ 1 le_rfl 1 2 2 2 1 0 1
    ⟨by norm_num, by norm_num, by norm_num, by norm_num, by norm_num, by norm_num⟩ (by norm_num) _ _ (by simp)
    demo_objReads
  exact ⟨m, fl, s, h1, h2⟩

/-! ## C65: every step returns a bus -/

theorem Sfun.finish_total {s s' : Shell ℝ} {pol : Policy} (hs : s.Reachable pol) {pose : Affine ℝ} {method : String}
    {b : Bool} (h : SetUp pol s pose method s' b) (c : Bool) : ∃ bus, Sfun.finish pol s' c = .ok s' bus := by
  obtain ⟨o, ho, -⟩ := h.reports hs
  obtain ⟨bus, hb⟩ := C54_fill_total ho c
  exact ⟨bus, by rw [Sfun.finish, hb]⟩

theorem Shell.setupFlat_total {α : Type} [Scalar α] {s : Shell α} (hs : s.Reachable .raw) (hn : s.size ≤ 200)
    (flat : Flat α) (pose : Affine α) {method : String} (hm : method = "geometric" ∨ method = "sampling") :
    ∃ s' b, s.setupFlat .raw flat pose method = .ok s' b := by
  have hacc : ∀ j < s.ribs.length, s.out.accessible .raw (0 + j) = true := fun i hi => by
    rw [Shell.accessible_raw hs.inv]
    have : s.ribs.length ≤ 200 := hn
    exact decide_eq_true (by omega)
  obtain ⟨out', b', hl⟩ := Shell.ribLoop_total (comb := fun c _ => c) (b := false)
    (f := fun _ r => r.envelopFlat flat pose method) hacc (fun j r _ => Rib.envelopFlat_ok r flat pose hm)
  rw [Shell.setupFlat_eq, hl]
  exact ⟨_, _, rfl⟩

theorem Shell.setupMesh_sampling_total {s : Shell ℝ} (hs : s.Reachable .raw) (hn : s.size ≤ 200) {m : Mesh ℝ}
    (hm : BuiltMesh m) (pose : Affine ℝ) : ∃ s' b, s.setupMesh .raw m pose "sampling" = .ok s' b := by
  obtain ⟨loc, hloc, -⟩ := hm.query _ (Shell.updateBBox_WF (s.transform pose))
  have hacc : ∀ j < s.ribs.length, s.out.accessible .raw (0 + j) = true := fun i hi => by
    rw [Shell.accessible_raw hs.inv]
    have : s.ribs.length ≤ 200 := hn
    exact decide_eq_true (by omega)
  by_cases hne : loc = []
  · subst hne
    obtain ⟨out', b', hl⟩ := Shell.ribLoop_total (comb := fun _ _ => false) (b := false)
      (f := fun _ r => .ok (false, r.noContact pose)) hacc (fun j r _ => ⟨_, rfl⟩)
    have hset := Shell.setupMesh_none (pol := .raw) (method := "sampling") hloc
    rw [hl] at hset
    exact ⟨_, _, hset⟩
  · have hset := Shell.setupMesh_some (pol := .raw) (method := "sampling") hs.inv.cands hloc hne
    obtain ⟨out', b', hl⟩ := Shell.ribLoop_total (comb := fun c b => c || b) (b := false)
      (f := fun _ r => r.envelopMesh (Shell.ribCandidates pose "sampling" loc r) pose "sampling") hacc
      (fun j r hr => by simp [Rib.envelopMesh])
    rw [hl] at hset
    exact ⟨_, _, hset⟩

/-- An input the block accepts: the selectors are 0 or 1, and where the geometric method is used on the mesh, the hub
pose is rigid and no triangle near the tyre almost touches a rib plane with a vertex. -/
structure Spec.GoodInput (mesh : Mesh ℝ) (s : Shell ℝ) (x : StepInput ℝ) : Prop where
  method : x.method = 0 ∨ x.method = 1
  sel : x.sel = 0 ∨ x.sel = 1
  geometric : x.method = 0 → x.sel = 0 → IsRigid x.hub ∧
    ∀ t ∈ mesh.triangles, t.bbox.intersects (s.transform x.hub).updateBBox.bbox = true →
      ∀ r ∈ s.ribs, ClearOfRib x.hub r t.tri

/-- **C65, the part that holds.**  With at most 200 ribs, a loaded mesh and a flat ground from its constructor, a step
returns a bus for every accepted input.  Missing: the geometric method on a mesh with vertices almost on a rib plane,
where it is false (`C65_step_refuted`), and more than 200 ribs (`C06_more_than_200_ribs_refuted`). -/
theorem C65_step_partial (s : Shell ℝ) (hs : s.Reachable .raw) (hn : s.size ≤ 200) (mesh : Mesh ℝ) (hm : BuiltMesh mesh)
    (f : ℝ) (og nm : V3 ℝ) (flat : Flat ℝ) (hflat : Flat.make f og nm = .ok flat) (x : StepInput ℝ)
    (hx : GoodInput mesh s x) :
    ∃ s' bus, Sfun.out .raw mesh flat s x.hub x.method x.sel = .ok s' bus := by
  obtain ⟨name, hname, hnm⟩ : ∃ name, Sfun.methodName x.method = .ok name ∧
      ((x.method = 0 ∧ name = "geometric") ∨ name = "sampling") := by
    rcases hx.method with h | h
    · exact ⟨"geometric", by simp [Sfun.methodName, h], .inl ⟨h, rfl⟩⟩
    · exact ⟨"sampling", by simp [Sfun.methodName, h], .inr rfl⟩
  have hflatstep : ∀ (t : Shell ℝ) (c : Bool), t.Reachable .raw → t.size ≤ 200 →
      ∃ s' b bus, t.setupFlat .raw flat x.hub name = .ok s' b ∧ Sfun.finish .raw s' c = .ok s' bus := by
    intro t c ht hn
    obtain ⟨s', b, h⟩ := Shell.setupFlat_total ht hn flat x.hub (method := name) (by
      rcases hnm with ⟨-, h⟩ | h
      · exact .inl h
      · exact .inr h)
    obtain ⟨bus, hb⟩ := Sfun.finish_total ht (.inr ⟨_, _, _, _, hflat, h⟩) c
    exact ⟨s', b, bus, h, hb⟩
  unfold Sfun.out
  rw [hname]
  dsimp only
  rcases hx.sel with hsel | hsel
  · rw [hsel, if_pos (by simp)]
    have hmesh : ∃ s' b, s.setupMesh .raw mesh x.hub name = .ok s' b := by
      rcases hnm with ⟨h0, rfl⟩ | rfl
      · obtain ⟨k1, k2⟩ := hx.geometric h0 hsel
        exact C37_setup_partial s hs hn mesh hm x.hub k1 k2
      · exact Shell.setupMesh_sampling_total hs hn hm x.hub
    obtain ⟨s1, b, h1⟩ := hmesh
    rw [h1]
    cases b with
    | true =>
      obtain ⟨bus, hb⟩ := Sfun.finish_total hs (.inl ⟨_, h1⟩) true
      exact ⟨s1, bus, hb⟩
    | false =>
      have r1 := (Shell.setupMesh_rel (.inl ⟨_, h1⟩)).ribs
      obtain ⟨s', b, bus, k1, k2⟩ := hflatstep s1 false (.setupMesh hs (.inl h1)) (by rw [Shell.size, r1]; exact hn)
      dsimp only
      rw [k1]
      exact ⟨s', bus, k2⟩
  · rw [hsel, if_neg (by simp), if_pos (by simp)]
    obtain ⟨s', b, bus, k1, k2⟩ := hflatstep s true hs hn
    rw [k1]
    exact ⟨s', bus, k2⟩

/-- **C65, the part that holds**, for a whole simulation: after initialisation with at most 200 ribs, a run over any
sequence of accepted inputs completes and gives one bus per input. -/
theorem C65_run_partial (np : NumParse ℝ) (fresh : Nat → Output ℝ) (path : Option (List Char))
    (file : Option (List (List Char))) (n : Nat) (hn : 1 ≤ n) (hn2 : n ≤ 200) (rx mx ry my ly h f : ℝ)
    (hv : ValidProfile rx mx ry my ly) (mesh : Mesh ℝ) (flat : Flat ℝ) (s : Shell ℝ)
    (hinit : Sfun.init np fresh path file n rx mx ry my ly h f = .ok (mesh, flat, s)) (xs : List (StepInput ℝ))
    (hx : ∀ x ∈ xs, GoodInput mesh s x) :
    ∃ buses, run .raw mesh flat s xs = .ok buses ∧ buses.length = xs.length := by
  obtain ⟨⟨p, -, hg⟩, -, -, -, -, h6, -, -, h9⟩ := (C63_init np fresh path file n hn rx mx ry my ly h f hv).2 _ _ _ hinit
  have hm : BuiltMesh mesh := by
    rcases hg with ⟨stem, -, hm⟩ | ⟨stem, -, hm⟩
    · exact .inl ⟨np, .inl ⟨_, _, _, hm⟩⟩
    · exact .inl ⟨np, .inr ⟨_, _, _, _, hm⟩⟩
  have hfl := (Sfun.init_ok.1 hinit).2.1
  have hs := h9 .raw
  have : ∃ buses, List.Forall₂ (fun x bus => ∃ s', Sfun.out .raw mesh flat s x.hub x.method x.sel = .ok s' bus) xs
      buses := by
    clear hinit
    induction xs with
    | nil => exact ⟨[], .nil⟩
    | cons x xs ih =>
      obtain ⟨bs, hb⟩ := ih fun y hy => hx y (List.mem_cons_of_mem _ hy)
      obtain ⟨s', bus, hbus⟩ := C65_step_partial s hs (by omega) mesh hm _ _ _ flat hfl x (hx x (by simp))
      exact ⟨bus :: bs, .cons ⟨s', hbus⟩ hb⟩
  obtain ⟨buses, hb⟩ := this
  exact ⟨buses, (C64_run .raw mesh flat s hs xs buses).2 hb, hb.length_eq.symm⟩

/-- **C65 is false.**  One rib, a mesh of one triangle with a vertex at `eps / 2` from the rib plane: the step with the
geometric method throws. -/
theorem C65_step_refuted (fresh : Nat → Output ℝ) (flat : Flat ℝ) :
    ∃ (s s' : Shell ℝ) (mesh : Mesh ℝ) (hub : Affine ℝ) (e : String), Shell.make fresh 1 1 2 2 2 1 = .ok s ∧
      BuiltMesh mesh ∧ IsRigid hub ∧ Sfun.out .raw mesh flat s hub 0 0 = .throw s' e := by
  obtain ⟨s, s', t, pose, h1, h2, -, -, h5, h6⟩ := C37_near_vertex_refuted fresh
  refine ⟨s, s', _, pose, "exception not handled.", h1, h5, h2, ?_⟩
  have hname : Sfun.methodName (0 : ℝ) = .ok "geometric" := by simp [Sfun.methodName]
  unfold Sfun.out
  rw [hname]
  dsimp only
  rw [if_pos (by simp), h6]

/-- C64, C65: on the demonstration file, a run that visits one input, another, and the first again completes, and the
first and the last bus are the same. -/
example (fresh : Nat → Output ℝ) : ∃ mesh flat s b1 b2, Sfun.init demoNum fresh (some "a.rdf".toList)
    (some (demoPrefix ++ ["0 1 2 1".toList])) 1 1 2 2 2 1 0 1 = .ok (mesh, flat, s) ∧
    run .raw mesh flat s [⟨Demo.upright 0, 1, 0⟩, ⟨Demo.upright 1, 0, 1⟩, ⟨Demo.upright 0, 1, 0⟩] = .ok [b1, b2, b1] := by
  have e : (fun f : ℝ => 0 ≤ f) = fun f => (zero <=. f) = true := by funext x; simp
  have hv : ValidProfile (1 : ℝ) 2 2 2 1 := ⟨by norm_num, by norm_num, by norm_num, by norm_num, by norm_num, by norm_num⟩
  obtain ⟨m, fl, s, h1, -⟩ := C63_init_rdf demoNum fresh "a".toList _ 1 le_rfl 1 2 2 2 1 0 1 hv (by norm_num) _ _
    (by rw [e]; exact demo_rdfText)
  obtain ⟨buses, hb, hl⟩ := C65_run_partial demoNum fresh _ _ 1 le_rfl (by norm_num) 1 2 2 2 1 0 1 hv m fl s h1
    [⟨Demo.upright 0, 1, 0⟩, ⟨Demo.upright 1, 0, 1⟩, ⟨Demo.upright 0, 1, 0⟩] (by
      intro x hx
      simp only [List.mem_cons, List.not_mem_nil, or_false] at hx
      rcases hx with rfl | rfl | rfl
      · exact ⟨.inr rfl, .inl rfl, fun h => absurd h (by norm_num)⟩
      · exact ⟨.inl rfl, .inr rfl, fun _ h => absurd h (by norm_num)⟩
      · exact ⟨.inr rfl, .inl rfl, fun h => absurd h (by norm_num)⟩)
  obtain ⟨-, -, -, -, -, -, -, -, h9⟩ :=
    (C63_init demoNum fresh _ _ 1 le_rfl 1 2 2 2 1 0 1 hv).2 _ _ _ h1
  match buses, hl with
  | [b1, b2, b3], _ =>
    have := (C64_run .raw m fl s (h9 .raw) _ _).1 hb
    cases this with
    | cons k1 this =>
    cases this with
    | cons _ this =>
    cases this with
    | cons k3 _ =>
    obtain ⟨s1, k1⟩ := k1
    obtain ⟨s3, k3⟩ := k3
    rw [k1] at k3
    cases k3
    exact ⟨m, fl, s, b1, b2, h1, hb⟩

end Enve
