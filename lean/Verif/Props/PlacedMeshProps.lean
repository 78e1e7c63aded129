import Verif.Props.MovedProps
import Verif.Props.LoaderProps
import Verif.Props.RunProps

/-!
# C140: a file loaded at another place

Whether a file loads does not depend on the pose, and the mesh loaded at a moved pose is the mesh moved, so that a tyre moved along
with it has the moved contacts.
-/

namespace Enve
open Scalar Spec

variable {α : Type} [Scalar α]

/-- Two outcomes of loading a file: both succeed with the same answer, or both fail with the same message, and the faces present in
the two meshes afterwards are related by `R`. -/
def Spec.SameLoading (R : TriangleGround α → TriangleGround α → Prop) (a b : MRes (Mesh α) Bool) : Prop :=
  (∃ M M' flag, a = .ok M flag ∧ b = .ok M' flag ∧ List.Forall₂ R M.triangles M'.triangles) ∨
  (∃ M M' w, a = .throw M w ∧ b = .throw M' w ∧ List.Forall₂ R M.triangles M'.triangles) ∨ ∃ w, a = .ub w ∧ b = .ub w

/-- Two faces with the same number and the same friction. -/
def Spec.SameLabel (t t' : TriangleGround α) : Prop := t'.id = t.id ∧ t'.friction = t.friction

/-- The face `t'` has the vertices of `t`, placed by `p`, and its number and friction. -/
structure Spec.PlacedFace (p : Affine α) (t t' : TriangleGround α) : Prop where
  v0 : t'.tri.v0 = p.apply t.tri.v0
  v1 : t'.tri.v1 = p.apply t.tri.v1
  v2 : t'.tri.v2 = p.apply t.tri.v2
  id : t'.id = t.id
  friction : t'.friction = t.friction

namespace Placed

/-- A relation between vertices and one between faces, such that faces built on related vertices are related. -/
structure Builds (V : V3 α → V3 α → Prop) (R : TriangleGround α → TriangleGround α → Prop) : Prop where
  make : ∀ (id : Int) (f : α) (a b c a' b' c' : V3 α), V a a' → V b b' → V c c' → (zero <=. f) = true →
    ∃ t t', TriangleGround.make id f a b c = .ok t ∧ TriangleGround.make id f a' b' c' = .ok t' ∧ R t t'

/-- Two states of the loader with related vertices and faces. -/
structure Rel (V : V3 α → V3 α → Prop) (R : TriangleGround α → TriangleGround α → Prop) (s s' : Mesh.LoadState α) : Prop where
  nodes : List.Forall₂ V s.nodes s'.nodes
  triangles : List.Forall₂ R s.triangles s'.triangles
  elements : s'.elements = s.elements
  nodesParse : s'.nodesParse = s.nodesParse
  elementsParse : s'.elementsParse = s.elementsParse

/-- Two results with related values, or failing alike. -/
inductive Alike {β γ : Type} (R : β → γ → Prop) : Res β → Res γ → Prop
  | ok {x y} : R x y → Alike R (.ok x) (.ok y)
  | throw (w) : Alike R (.throw w) (.throw w)
  | ub (w) : Alike R (.ub w) (.ub w)

theorem Alike.bind {β γ δ ε : Type} {R : β → γ → Prop} {Q : δ → ε → Prop} {a : Res β} {b : Res γ} (h : Alike R a b)
    {f : β → Res δ} {g : γ → Res ε} (hf : ∀ x y, R x y → Alike Q (f x) (g y)) : Alike Q (a >>= f) (b >>= g) := by
  cases h with
  | ok h => exact hf _ _ h
  | throw w => exact .throw w
  | ub w => exact .ub w

theorem Alike.refl {β : Type} (a : Res β) : Alike Eq a a := by
  cases a with
  | ok x => exact .ok rfl
  | throw w => exact .throw w
  | ub w => exact .ub w

theorem Alike.bind' {β δ ε : Type} {Q : δ → ε → Prop} (a : Res β) {f : β → Res δ} {g : β → Res ε}
    (hf : ∀ x, a = .ok x → Alike Q (f x) (g x)) : Alike Q (a >>= f) (a >>= g) := by
  cases a with
  | ok x => exact hf x rfl
  | throw w => exact .throw w
  | ub w => exact .ub w

variable {V : V3 α → V3 α → Prop} {R : TriangleGround α → TriangleGround α → Prop}

theorem forall₂_snoc {β γ : Type} {P : β → γ → Prop} {l : List β} {l' : List γ} (h : List.Forall₂ P l l') {x : β} {y : γ} (hx : P x y) :
    List.Forall₂ P (l ++ [x]) (l' ++ [y]) := List.rel_append h (.cons hx .nil)

theorem forall₂_get {β γ : Type} {P : β → γ → Prop} {l : List β} {l' : List γ} (h : List.Forall₂ P l l') (i : Nat) :
    (∃ x y, l[i]? = some x ∧ l'[i]? = some y ∧ P x y) ∨ (l[i]? = none ∧ l'[i]? = none) := by
  induction h generalizing i with
  | nil => right; simp
  | cons hx _ ih =>
    cases i with
    | zero => left; exact ⟨_, _, rfl, rfl, hx⟩
    | succ i => simpa using ih i

theorem nodeAt {ns ns' : List (V3 α)} (h : List.Forall₂ V ns ns') (i : Int) : Alike V (Mesh.nodeAt ns i) (Mesh.nodeAt ns' i) := by
  unfold Mesh.nodeAt
  rcases forall₂_get h i.toNat with ⟨x, y, h1, h2, h3⟩ | ⟨h1, h2⟩
  · rw [h1, h2]; exact .ok h3
  · rw [h1, h2]; exact .ub _

theorem parseNode (np : NumParse α) {p p' : Affine α} (hp : ∀ x, V (p.apply x) (p'.apply x)) (l : List Char) :
    Alike V (Mesh.parseNode np p l) (Mesh.parseNode np p' l) := by
  unfold Mesh.parseNode
  split
  · exact Alike.bind' _ fun x _ => Alike.bind' _ fun y _ => Alike.bind' _ fun z _ => .ok (hp _)
  · exact .throw _

theorem built (hR : Builds V R) {ns ns' : List (V3 α)} (h : List.Forall₂ V ns ns') (id : Int) (f : α) (i j k : Int) :
    Alike R (do let p ← Mesh.nodeAt ns i; let q ← Mesh.nodeAt ns j; let r ← Mesh.nodeAt ns k; TriangleGround.make id f p q r)
      (do let p ← Mesh.nodeAt ns' i; let q ← Mesh.nodeAt ns' j; let r ← Mesh.nodeAt ns' k; TriangleGround.make id f p q r) := by
  refine (nodeAt h i).bind fun a a' ha => (nodeAt h j).bind fun b b' hb => (nodeAt h k).bind fun c c' hc => ?_
  by_cases hf : (zero <=. f) = true
  · obtain ⟨t, t', h1, h2, h3⟩ := hR.make id f a b c a' b' c' ha hb hc hf
    rw [h1, h2]
    exact .ok h3
  · rw [Bool.not_eq_true] at hf
    unfold TriangleGround.make
    rw [hf]
    exact .throw _

theorem parseRdfElement (np : NumParse α) (hR : Builds V R) {ns ns' : List (V3 α)} (h : List.Forall₂ V ns ns') (id : Nat)
    (l : List Char) : Alike R (Mesh.parseRdfElement np ns id l) (Mesh.parseRdfElement np ns' id l) := by
  unfold Mesh.parseRdfElement
  split
  · exact Alike.bind' _ fun i _ => Alike.bind' _ fun j _ => Alike.bind' _ fun k _ => Alike.bind' _ fun f _ =>
      Alike.bind' _ fun _ _ => Alike.bind' _ fun _ _ => Alike.bind' _ fun _ _ => Alike.bind' _ fun _ _ => built hR h _ _ _ _ _
  · exact .throw _

theorem parseObjFace (np : NumParse α) (hR : Builds V R) (friction : α) {ns ns' : List (V3 α)}
    (h : List.Forall₂ V ns ns') (id : Nat) (l : List Char) :
    Alike R (Mesh.parseObjFace np friction ns id l) (Mesh.parseObjFace np friction ns' id l) := by
  unfold Mesh.parseObjFace
  split
  · exact Alike.bind' _ fun i _ => Alike.bind' _ fun j _ => Alike.bind' _ fun k _ =>
      Alike.bind' _ fun _ _ => Alike.bind' _ fun _ _ => Alike.bind' _ fun _ _ => built hR h _ _ _ _ _
  · exact .throw _

theorem rdfLine (np : NumParse α) (hR : Builds V R) {p p' : Affine α} (hp : ∀ x, V (p.apply x) (p'.apply x))
    {s s' : Mesh.LoadState α} (h : Rel V R s s') (l : List Char) :
    Alike (Rel V R) (Mesh.rdfLine np p s l) (Mesh.rdfLine np p' s' l) := by
  unfold Mesh.rdfLine
  dsimp only
  split_ifs
  · exact .ok ⟨h.nodes, h.triangles, h.elements, rfl, rfl⟩
  · exact .ok ⟨h.nodes, h.triangles, h.elements, rfl, rfl⟩
  · exact .ok h
  · exact .ok h
  · refine Alike.bind (R := Rel V R) ?_ fun u u' hu => ?_
    · unfold Mesh.rdfNode
      rw [h.nodesParse]
      split_ifs
      · exact (parseNode np hp l).bind fun a a' ha =>
          .ok ⟨forall₂_snoc h.nodes ha, h.triangles, h.elements, rfl, h.elementsParse⟩
      · exact .ok h
    · unfold Mesh.rdfElement
      rw [hu.elementsParse, hu.elements]
      split_ifs
      · exact (parseRdfElement np hR hu.nodes _ l).bind fun t t' ht =>
          .ok ⟨hu.nodes, forall₂_snoc hu.triangles ht, rfl, hu.nodesParse, rfl⟩
      · exact .ok hu

theorem objLine (np : NumParse α) (hR : Builds V R) (friction : α) {p p' : Affine α}
    (hp : ∀ x, V (p.apply x) (p'.apply x)) {s s' : Mesh.LoadState α} (h : Rel V R s s') (l : List Char) :
    Alike (Rel V R) (Mesh.objLine np friction p s l) (Mesh.objLine np friction p' s' l) := by
  unfold Mesh.objLine
  dsimp only
  split_ifs
  · exact (parseNode np hp l).bind fun a a' ha =>
      .ok ⟨forall₂_snoc h.nodes ha, h.triangles, h.elements, h.nodesParse, h.elementsParse⟩
  · rw [h.elements]
    exact (parseObjFace np hR friction h.nodes _ l).bind fun t t' ht =>
      .ok ⟨h.nodes, forall₂_snoc h.triangles ht, rfl, h.nodesParse, h.elementsParse⟩
  · exact .ok h

theorem lineLoop {f g : Mesh.LoadState α → List Char → Res (Mesh.LoadState α)}
    (hfg : ∀ s s' l, Rel V R s s' → Alike (Rel V R) (f s l) (g s' l)) (lines : List (List Char)) {s s' : Mesh.LoadState α}
    (h : Rel V R s s') :
    (∃ a b, Mesh.lineLoop f lines s = .ok a () ∧ Mesh.lineLoop g lines s' = .ok b () ∧ Rel V R a b) ∨
    (∃ a b w, Mesh.lineLoop f lines s = .throw a w ∧ Mesh.lineLoop g lines s' = .throw b w ∧ Rel V R a b) ∨
    ∃ w, Mesh.lineLoop f lines s = .ub w ∧ Mesh.lineLoop g lines s' = .ub w := by
  induction lines generalizing s s' with
  | nil => exact .inl ⟨s, s', rfl, rfl, h⟩
  | cons l ls ih =>
    have hl := hfg s s' l h
    unfold Mesh.lineLoop
    generalize f s l = a at hl
    generalize g s' l = b at hl
    cases hl with
    | ok hab => exact ih hab
    | throw w => exact .inr (.inl ⟨s, s', w, rfl, rfl, h⟩)
    | ub w => exact .inr (.inr ⟨w, rfl, rfl⟩)

theorem loadWith {f g : Mesh.LoadState α → List Char → Res (Mesh.LoadState α)}
    (hfg : ∀ s s' l, Rel V R s s' → Alike (Rel V R) (f s l) (g s' l)) (ext path : List Char) (file : Option (List (List Char)))
    {M M' : Mesh α} (hM : List.Forall₂ R M.triangles M'.triangles) :
    SameLoading R (Mesh.loadWith f ext M path file) (Mesh.loadWith g ext M' path file) := by
  unfold Mesh.loadWith
  cases Mesh.extension path with
  | throw w => exact .inr (.inl ⟨M, M', w, rfl, rfl, hM⟩)
  | ub w => exact .inr (.inr ⟨w, rfl, rfl⟩)
  | ok e =>
    dsimp only
    by_cases he : e ≠ ext
    · rw [if_pos he, if_pos he]
      exact .inr (.inl ⟨M, M', _, rfl, rfl, hM⟩)
    rw [if_neg he, if_neg he]
    cases file with
    | none => exact .inr (.inl ⟨M, M', _, rfl, rfl, hM⟩)
    | some lines =>
      dsimp only
      have h0 : Rel V R ⟨[], M.triangles, 0, false, false⟩ ⟨[], M'.triangles, 0, false, false⟩ := ⟨.nil, hM, rfl, rfl, rfl⟩
      rcases lineLoop hfg lines h0 with ⟨a, b, h1, h2, h3⟩ | ⟨a, b, w, h1, h2, h3⟩ | ⟨w, h1, h2⟩
      · rw [h1, h2]
        dsimp only
        unfold Mesh.loadFinish
        dsimp only
        have hlen := h3.triangles.length_eq
        have hemp : b.triangles.isEmpty = a.triangles.isEmpty := by
          rw [Bool.eq_iff_iff, List.isEmpty_iff_length_eq_zero, List.isEmpty_iff_length_eq_zero, hlen]
        rw [h3.elements, ← hlen, hemp]
        split_ifs
        · exact .inr (.inl ⟨_, _, _, rfl, rfl, h3.triangles⟩)
        · exact .inr (.inl ⟨_, _, _, rfl, rfl, h3.triangles⟩)
        · exact .inl ⟨_, _, _, rfl, rfl, h3.triangles⟩
      · rw [h1, h2]
        exact .inr (.inl ⟨_, _, _, rfl, rfl, h3.triangles⟩)
      · rw [h1, h2]
        exact .inr (.inr ⟨w, rfl, rfl⟩)

theorem make_ok (id : Int) {f : α} (hf : (zero <=. f) = true) (a b c : V3 α) :
    TriangleGround.make id f a b c = .ok ((⟨⟨a, b, c⟩, id, f, V3.nan, Box.default⟩ : TriangleGround α).updateNormal.updateBBox) := by
  unfold TriangleGround.make
  rw [hf]
  rfl

theorem labels : Builds (fun _ _ : V3 α => True) SameLabel :=
  ⟨fun id f a b c a' b' c' _ _ _ hf => ⟨_, _, make_ok id hf a b c, make_ok id hf a' b' c', rfl, rfl⟩⟩

theorem places (p : Affine α) : Builds (fun a a' => a' = p.apply a) (PlacedFace p) :=
  ⟨fun id f a b c a' b' c' ha hb hc hf => ⟨_, _, make_ok id hf a b c, make_ok id hf a' b' c', ha, hb, hc, rfl, rfl⟩⟩

theorem moves {m : Affine ℝ} (hm : IsRigid m) (hv : KeepsVertical m) :
    Builds (fun a a' => a' = m.apply a) (MovedTriangle m) :=
  ⟨fun id f a b c a' b' c' ha hb hc hf => by
    subst ha hb hc
    exact ⟨_, _, make_ok id hf _ _ _, make_ok id hf _ _ _, MovedTriangle.make hm hv (make_ok id hf _ _ _) (make_ok id hf _ _ _)⟩⟩

end Placed

/-! ## Whether a file loads does not depend on the pose -/

/-- **C140**, in any arithmetic: a file loads at one pose exactly when it loads at any other, with the same messages, the same number
of faces, the same numbers and the same frictions. -/
theorem C140_outcome (np : NumParse α) (path : List Char) (file : Option (List (List Char))) (p p' : Affine α) :
    SameLoading SameLabel (Mesh.loadRdf np Mesh.empty path file p) (Mesh.loadRdf np Mesh.empty path file p') ∧
    ∀ friction, SameLoading SameLabel (Mesh.loadObj np Mesh.empty path file friction p)
      (Mesh.loadObj np Mesh.empty path file friction p') :=
  ⟨Placed.loadWith (fun _ _ l h => Placed.rdfLine np Placed.labels (fun _ => trivial) h l) _ _ _ .nil,
    fun friction => Placed.loadWith (fun _ _ l h => Placed.objLine np Placed.labels friction (fun _ => trivial) h l) _ _ _ .nil⟩

/-- The pose that leaves everything where it is. -/
def Spec.atHome : Affine ℝ := ⟨⟨⟨1, 0, 0⟩, ⟨0, 1, 0⟩, ⟨0, 0, 1⟩⟩, ⟨0, 0, 0⟩⟩

theorem Spec.atHome_apply (x : V3 ℝ) : atHome.apply x = x := by
  obtain ⟨a, b, c⟩ := x
  simp [atHome, Affine.apply, M3.mulVec, V3.real_add]

/-- **C140**: the faces of a file loaded at a pose are the faces of the file loaded where it was drawn, with the vertices placed by the
pose.  The pose may be any affine map, for instance a change of units. -/
theorem C140_placed (np : NumParse ℝ) (path : List Char) (file : Option (List (List Char))) (p : Affine ℝ) :
    SameLoading (PlacedFace p) (Mesh.loadRdf np Mesh.empty path file atHome) (Mesh.loadRdf np Mesh.empty path file p) ∧
    ∀ friction, SameLoading (PlacedFace p) (Mesh.loadObj np Mesh.empty path file friction atHome)
      (Mesh.loadObj np Mesh.empty path file friction p) := by
  have hp : ∀ x, p.apply x = p.apply (atHome.apply x) := fun x => by rw [atHome_apply]
  exact ⟨Placed.loadWith (fun _ _ l h => Placed.rdfLine np (Placed.places p) hp h l) _ _ _ .nil,
    fun friction => Placed.loadWith (fun _ _ l h => Placed.objLine np (Placed.places p) friction hp h l) _ _ _ .nil⟩

/-- **C140**: a file loaded at a pose moved by a rigid motion that keeps the vertical gives the moved mesh: vertices moved, normals
rotated, frictions as they were. -/
theorem C140_moved (np : NumParse ℝ) (path : List Char) (file : Option (List (List Char))) (pose : Affine ℝ) {m : Affine ℝ}
    (hm : IsRigid m) (hv : KeepsVertical m) :
    SameLoading (MovedTriangle m) (Mesh.loadRdf np Mesh.empty path file pose)
      (Mesh.loadRdf np Mesh.empty path file (movedPose m pose)) ∧
    ∀ friction, SameLoading (MovedTriangle m) (Mesh.loadObj np Mesh.empty path file friction pose)
      (Mesh.loadObj np Mesh.empty path file friction (movedPose m pose)) := by
  have hp : ∀ x, (movedPose m pose).apply x = m.apply (pose.apply x) := movedPose_apply m pose
  exact ⟨Placed.loadWith (fun _ _ l h => Placed.rdfLine np (Placed.moves hm hv) hp h l) _ _ _ .nil,
    fun friction => Placed.loadWith (fun _ _ l h => Placed.objLine np (Placed.moves hm hv) friction hp h l) _ _ _ .nil⟩

/-- `M` and `M'` are constructed from one file, at the pose `place` and at this pose moved by `m`. -/
def Spec.SameFile (m place : Affine ℝ) (M M' : Mesh ℝ) : Prop :=
  ∃ np path file, (Mesh.ofRdf np path file place = .ok M ∧ Mesh.ofRdf np path file (movedPose m place) = .ok M') ∨
    ∃ friction, Mesh.ofObj np path file friction place = .ok M ∧ Mesh.ofObj np path file friction (movedPose m place) = .ok M'

theorem Placed.ofLoading {R : TriangleGround α → TriangleGround α → Prop} {a b : MRes (Mesh α) Bool} (h : SameLoading R a b) {M : Mesh α}
    (hM : Mesh.constructed a = .ok M) : ∃ M', Mesh.constructed b = .ok M' ∧ List.Forall₂ R M.triangles M'.triangles := by
  have ha := Mesh.constructed_ok hM
  subst ha
  rcases h with ⟨A, B, flag, h1, h2, h3⟩ | ⟨A, B, w, h1, -⟩ | ⟨w, h1, -⟩
  · cases h1
    exact ⟨B, by rw [h2]; rfl, h3⟩
  · cases h1
  · cases h1

theorem Spec.SameFile.moved {m place : Affine ℝ} (hm : IsRigid m) (hv : KeepsVertical m) {M M' : Mesh ℝ} (h : SameFile m place M M') :
    List.Forall₂ (MovedTriangle m) M.triangles M'.triangles ∧ BuiltMesh M ∧ BuiltMesh M' := by
  obtain ⟨np, path, file, ⟨h1, h2⟩ | ⟨friction, h1, h2⟩⟩ := h
  · obtain ⟨B, e1, e2⟩ := Placed.ofLoading (C140_moved np path file place hm hv).1 h1
    cases e1.symm.trans h2
    exact ⟨e2, .inl ⟨np, .inl ⟨_, _, _, h1⟩⟩, .inl ⟨np, .inl ⟨_, _, _, h2⟩⟩⟩
  · obtain ⟨B, e1, e2⟩ := Placed.ofLoading ((C140_moved np path file place hm hv).2 friction) h1
    cases e1.symm.trans h2
    exact ⟨e2, .inl ⟨np, .inr ⟨_, _, _, _, h1⟩⟩, .inl ⟨np, .inr ⟨_, _, _, _, h2⟩⟩⟩

/-! ## The contacts of a tyre that is moved along -/

/-- **C140**: a file loaded at a translated place and a tyre translated along: the sampled contacts are the translated ones. -/
theorem C140_sampling {pol : Policy} {s sA sB : Shell ℝ} (hs : s.Reachable pol) (hx : 0 ≤ s.shape.rx) {d : V3 ℝ} {place : Affine ℝ}
    {M M' : Mesh ℝ} (hM : SameFile (translation d) place M M') {pose : Affine ℝ} {b b' : Bool}
    (hA : s.setupMesh pol M pose "sampling" = .ok sA b)
    (hB : s.setupMesh pol M' (movedPose (translation d) pose) "sampling" = .ok sB b') :
    b' = b ∧ ∀ i < s.size, ∃ o o', sA.out.read pol i = .ok o ∧ sB.out.read pol i = .ok o' ∧
      SameGeometry (movedRecord (translation d) o) o' := by
  obtain ⟨h, h1, h2⟩ := hM.moved (translation_rigid d) rfl
  exact C89_setup_mesh_sampling hs hx h1 h2 h hA hB

/-- **C140** (partial: no vertex on the plane of a rib, no section shorter than the threshold): a file loaded at a place moved by a rigid
motion that keeps the vertical and a tyre moved along: the geometric contacts are the moved ones. -/
theorem C140_geometric_partial {pol : Policy} {s sA sB : Shell ℝ} (hs : s.Reachable pol) (hx : 0 ≤ s.shape.rx) {m place : Affine ℝ}
    (hm : IsRigid m) (hv : KeepsVertical m) {M M' : Mesh ℝ} (hM : SameFile m place M M') {pose : Affine ℝ} (hp : IsRigid pose)
    (hbox : ∀ r ∈ s.ribs, r.radius ^ 2 + r.center.y ^ 2 ≤ s.shape.rx ^ 2)
    (hoff : ∀ t ∈ M.triangles, ∀ r ∈ s.ribs, OffRib pose r t.tri)
    (hlen : ∀ t ∈ M.triangles, ∀ r ∈ s.ribs, ∀ seg,
      Inter.triangleDisk t.tri (r.diskGrd pose) Scalar.eps = .ok (some seg) → Scalar.eps ≤ dist3 seg.v0 seg.v1)
    (hvol : ∀ r ∈ s.ribs, ∀ o, r.envelopGeometricMesh M.triangles pose = .ok (true, o) → o.volume ≠ 0)
    {b b' : Bool} (hA : s.setupMesh pol M pose "geometric" = .ok sA b)
    (hB : s.setupMesh pol M' (movedPose m pose) "geometric" = .ok sB b') : b' = b ∧ MovedShell m pol sA sB := by
  obtain ⟨h, h1, h2⟩ := hM.moved hm hv
  exact C89_setup_mesh_partial hs hx h1 h2 hp hm h hbox hoff hlen hvol hA hB

/-! ## A motion that does not keep the vertical -/

/-- Half a turn about the first axis. -/
def Demo.overturn : Affine ℝ := ⟨⟨⟨1, 0, 0⟩, ⟨0, -1, 0⟩, ⟨0, 0, -1⟩⟩, ⟨0, 0, 0⟩⟩

theorem Demo.overturn_rigid : IsRigid Demo.overturn := by
  refine ⟨?_, ?_, ?_, ?_, ?_, ?_, ?_⟩ <;> norm_num [Demo.overturn]

/-- **C140** (refuted for a motion that does not keep the vertical): a file loaded upside down still has normals that point upwards. -/
theorem C140_overturned_refuted : ∃ M M' : Mesh ℝ, SameFile Demo.overturn atHome M M' ∧
    ¬ List.Forall₂ (MovedTriangle Demo.overturn) M.triangles M'.triangles := by
  obtain ⟨M, -, h1, -, h3⟩ := C19_rdf_load demoNum "a".toList _ atHome _ _ demo_rdfText
  obtain ⟨M', -, h1', -, h3'⟩ := C19_rdf_load demoNum "a".toList _ (movedPose Demo.overturn atHome) _ _ demo_rdfText
  refine ⟨M, M', ⟨demoNum, _, _, .inl ⟨h1, h1'⟩⟩, fun h => ?_⟩
  obtain ⟨t, p, q, r, e1, ep, eq, er, -, -, v0, v1, v2⟩ := h3 0 0 1 2 1 rfl
  obtain ⟨t', -, -, -, e1', -⟩ := h3' 0 0 1 2 1 rfl
  cases ep; cases eq; cases er
  rw [atHome_apply] at v0 v1 v2
  have hmt : MovedTriangle Demo.overturn t t' := by
    rcases Placed.forall₂_get h 0 with ⟨x, y, k1, k2, k3⟩ | ⟨k1, -⟩
    · cases e1.symm.trans k1
      cases e1'.symm.trans k2
      exact k3
    · rw [e1] at k1; cases k1
  have hB : BuiltMesh M := .inl ⟨demoNum, .inl ⟨_, _, _, h1⟩⟩
  have hB' : BuiltMesh M' := .inl ⟨demoNum, .inl ⟨_, _, _, h1'⟩⟩
  obtain ⟨i, f, a, b, c, hc⟩ := hB.constructed t (List.mem_of_getElem? e1)
  obtain ⟨i', f', a', b', c', hc'⟩ := hB'.constructed t' (List.mem_of_getElem? e1')
  have ht : t.tri = ⟨a, b, c⟩ := (C27_triangle_box i f a b c t hc).2.2.1
  have ht' : t'.tri = ⟨a', b', c'⟩ := (C27_triangle_box i' f' a' b' c' t' hc').2.2.1
  have w0 := hmt.v0
  have w1 := hmt.v1
  have w2 := hmt.v2
  rw [v0] at w0; rw [v1] at w1; rw [v2] at w2
  rw [ht] at v0 v1 v2
  rw [ht'] at w0 w1 w2
  dsimp only at v0 v1 v2 w0 w1 w2
  subst v0 v1 v2 w0 w1 w2
  obtain ⟨k1, k2, k3, -, k5⟩ := C26_triangle_normal _ _ _ _ _ _ hc (by
    simp [V3.cross, V3.sub])
  obtain ⟨-, -, -, -, l5⟩ := C26_triangle_normal _ _ _ _ _ _ hc' (by
    simp [V3.cross, V3.sub, Demo.overturn, Affine.apply, M3.mulVec, V3.real_add])
  have hn := congrArg V3.z hmt.normal
  simp only [Demo.overturn, M3.mulVec, V3.real_add, V3.real_smul, real_add, real_mul] at hn
  simp only [dot3, V3.sub, real_sub] at k2 k3
  simp only [length3, Real.sqrt_eq_one] at k1
  nlinarith

/-! ### Example -/

/-- A text loads at the origin and at any translated place, a tyre is set up on both meshes, and its contacts are the translated ones. -/
example (fresh : Nat → Output ℝ) (d : V3 ℝ) (h : ℝ) : ∃ (s : Shell ℝ) (M M' : Mesh ℝ), Shell.make fresh 1 1 2 2 2 1 = .ok s ∧
    SameFile (translation d) atHome M M' ∧ ∃ sA sB b b', s.setupMesh .raw M (Demo.upright h) "sampling" = .ok sA b ∧
      s.setupMesh .raw M' (movedPose (translation d) (Demo.upright h)) "sampling" = .ok sB b' ∧ b' = b := by
  obtain ⟨s, a, h1, hshape, hab, -⟩ := Demo.oneRib fresh
  obtain ⟨M, -, k1, -⟩ := C19_rdf_load demoNum "a".toList _ atHome _ _ demo_rdfText
  obtain ⟨M', -, k2, -⟩ := C19_rdf_load demoNum "a".toList _ (movedPose (translation d) atHome) _ _ demo_rdfText
  have hs : s.Reachable .raw := .make h1
  have hn : s.size ≤ 200 := by unfold Shell.size; rw [hab]; simp
  have hM : SameFile (translation d) atHome M M' := ⟨demoNum, _, _, .inl ⟨k1, k2⟩⟩
  obtain ⟨-, b1, b2⟩ := hM.moved (translation_rigid d) rfl
  obtain ⟨sA, b, hA⟩ := Shell.setupMesh_sampling_total hs hn b1 (Demo.upright h)
  obtain ⟨sB, b', hB⟩ := Shell.setupMesh_sampling_total hs hn b2 (movedPose (translation d) (Demo.upright h))
  exact ⟨s, M, M', h1, hM, sA, sB, b, b', hA, hB, (C140_sampling hs (by rw [hshape]; norm_num) hM hA hB).1⟩

end Enve
