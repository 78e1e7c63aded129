import Verif.Props.LoaderProps

/-!
# C141, C142: node numbers and comments in mesh files

The elements of an RDF file refer to nodes by position, not by the number in the `id` column of the file.  Lines that start a comment
change nothing, but a comment over several lines is not skipped.
-/

namespace Enve
open Scalar Spec

variable {α : Type} [Scalar α]

/-! ## Node numbers -/

/-- The text lists a node with the number `n` and the coordinates `p`: after a NODES header and before the next ELEMENTS header there is
a line of the number and the three coordinates. -/
def Spec.ListsNode (stod : List Char → Option α) (stoi : List Char → Option Int) (lines : List (List Char)) (n : Nat)
    (p : α × α × α) : Prop :=
  ∃ pre h w ws body l post id a b c, lines = pre ++ h :: (body ++ l :: post) ∧ WordLine h (w :: ws) ∧ NodesWord w ∧
    (∀ l' ∈ body, ∀ w ws, WordLine l' (w :: ws) → ¬ ElementsWord w) ∧ WordLine l [id, a, b, c] ∧ ¬ Reserved id ∧
    stoi id = some (n : Int) ∧ stod a = some p.1 ∧ stod b = some p.2.1 ∧ stod c = some p.2.2

/-- **C141** (partial: the numbers must be the positions, counted from zero): the vertices of a loaded face are the nodes with the numbers
its element lists. -/
theorem C141_numbered_partial (np : NumParse α) (stem : List Char) (lines : List (List Char)) (pose : Affine α)
    (nodes : List (α × α × α)) (elements : List (Nat × Nat × Nat × α))
    (h : RdfText np.stod np.stoi (fun f => (zero <=. f) = true) lines nodes elements)
    (hnum : ∀ n p, ListsNode np.stod np.stoi lines n p → nodes[n]? = some p) :
    ∃ m, Mesh.ofRdf np (stem ++ ".rdf".toList) (some lines) pose = .ok m ∧ m.triangles.length = elements.length ∧
      ∀ (e i j k : Nat) (f : α), elements[e]? = some (i, j, k, f) → ∃ t, m.triangles[e]? = some t ∧ t.friction = f ∧
        (∀ p, ListsNode np.stod np.stoi lines i p → t.tri.v0 = pose.apply ⟨p.1, p.2.1, p.2.2⟩) ∧
        (∀ p, ListsNode np.stod np.stoi lines j p → t.tri.v1 = pose.apply ⟨p.1, p.2.1, p.2.2⟩) ∧
        ∀ p, ListsNode np.stod np.stoi lines k p → t.tri.v2 = pose.apply ⟨p.1, p.2.1, p.2.2⟩ := by
  obtain ⟨m, -, h1, h2, h3⟩ := C19_rdf_load np stem lines pose nodes elements h
  refine ⟨m, h1, h2, fun e i j k f he => ?_⟩
  obtain ⟨t, p, q, r, t1, n1, n2, n3, -, t2, v0, v1, v2⟩ := h3 e i j k f he
  refine ⟨t, t1, t2, fun p' hp => ?_, fun p' hp => ?_, fun p' hp => ?_⟩
  · cases n1.symm.trans (hnum _ _ hp); exact v0
  · cases n2.symm.trans (hnum _ _ hp); exact v1
  · cases n3.symm.trans (hnum _ _ hp); exact v2

/-- **C141** (refuted): the numbers are not read.  Two texts that list the same nodes and elements in the same order, whatever numbers the
nodes have, give the same faces. -/
theorem C141_numbers_unread_refuted (np : NumParse α) (stem : List Char) (lines lines' : List (List Char)) (pose : Affine α)
    (nodes : List (α × α × α)) (elements : List (Nat × Nat × Nat × α))
    (h : RdfText np.stod np.stoi (fun f => (zero <=. f) = true) lines nodes elements)
    (h' : RdfText np.stod np.stoi (fun f => (zero <=. f) = true) lines' nodes elements) :
    ∃ m m', Mesh.ofRdf np (stem ++ ".rdf".toList) (some lines) pose = .ok m ∧
      Mesh.ofRdf np (stem ++ ".rdf".toList) (some lines') pose = .ok m' ∧
      List.Forall₂ (fun t t' => t'.tri = t.tri ∧ t'.friction = t.friction ∧ t'.id = t.id) m.triangles m'.triangles := by
  obtain ⟨m, -, h1, h2, h3⟩ := C19_rdf_load np stem lines pose nodes elements h
  obtain ⟨m', -, h1', h2', h3'⟩ := C19_rdf_load np stem lines' pose nodes elements h'
  refine ⟨m, m', h1, h1', List.forall₂_iff_get.mpr ⟨by rw [h2, h2'], fun e he he' => ?_⟩⟩
  have hl : e < elements.length := by omega
  obtain ⟨t, p, q, r, t1, n1, n2, n3, ti, t2, v0, v1, v2⟩ := h3 e _ _ _ _ (List.getElem?_eq_getElem hl)
  obtain ⟨t', p', q', r', t1', n1', n2', n3', ti', t2', v0', v1', v2'⟩ := h3' e _ _ _ _ (List.getElem?_eq_getElem hl)
  cases n1.symm.trans n1'
  cases n2.symm.trans n2'
  cases n3.symm.trans n3'
  have e1 : m.triangles.get ⟨e, he⟩ = t := (List.getElem?_eq_some_iff.mp t1).2
  have e2 : m'.triangles.get ⟨e, he'⟩ = t' := (List.getElem?_eq_some_iff.mp t1').2
  rw [e1, e2]
  refine ⟨?_, by rw [t2, t2'], by rw [ti, ti']⟩
  rcases ht : t.tri with ⟨a, b, c⟩
  rcases ht' : t'.tri with ⟨a', b', c'⟩
  rw [ht] at v0 v1 v2
  rw [ht'] at v0' v1' v2'
  dsimp only at v0 v1 v2 v0' v1' v2'
  rw [v0, v1, v2, v0', v1', v2']

/-! ## Comments -/

/-- A comment line of an RDF text: the first character that is not blank is `{`, `%` or `#`. -/
def Spec.CommentLine (l : List Char) : Prop :=
  ∃ pre c rest, l = pre ++ c :: rest ∧ Blank pre ∧ (c = '{' ∨ c = '%' ∨ c = '#')

/-- A line of an OBJ text that is neither a vertex nor a face: it has no words, or the first word is neither `v` nor `f`. -/
def Spec.NotVertexNorFace (l : List Char) : Prop :=
  Blank l ∨ ∃ pre w rest, l = pre ++ w ++ rest ∧ Blank pre ∧ w ≠ [] ∧ (∀ c ∈ w, c ≠ ' ' ∧ c ≠ '\t' ∧ c ≠ '\r' ∧ c ≠ '\n') ∧
    (∀ c ∈ rest.head?, c = ' ' ∨ c = '\t' ∨ c = '\r' ∨ c = '\n') ∧ w ≠ "v".toList ∧ w ≠ "f".toList

theorem Text.isSpace_iff (c : Char) : Text.isSpace c = true ↔ c = ' ' ∨ c = '\t' ∨ c = '\r' ∨ c = '\n' := by
  simp [Text.isSpace]
  try tauto

theorem Text.dropWhile_blank {pre rest : List Char} (h : Blank pre) (hr : ∀ c ∈ rest.head?, Text.isSpace c = false) :
    (pre ++ rest).dropWhile Text.isSpace = rest := by
  induction pre with
  | nil =>
    cases rest with
    | nil => rfl
    | cons c rest => rw [List.nil_append, List.dropWhile_cons, hr c rfl]; rfl
  | cons c pre ih =>
    have hc : Text.isSpace c = true := (Text.isSpace_iff c).2 (h c (by simp))
    rw [List.cons_append, List.dropWhile_cons, if_pos hc]
    exact ih fun d hd => h d (List.mem_cons_of_mem _ hd)

theorem Mesh.lineLoop_skip {step : LoadState α → List Char → Res (LoadState α)} {c : List Char} (hc : ∀ s, step s c = .ok s)
    (A B : List (List Char)) (s : LoadState α) :
    Mesh.lineLoop step (A ++ c :: B) s = Mesh.lineLoop step (A ++ B) s := by
  induction A generalizing s with
  | nil =>
    rw [List.nil_append, List.nil_append, Mesh.lineLoop, hc]
  | cons l A ih =>
    rw [List.cons_append, List.cons_append, Mesh.lineLoop, Mesh.lineLoop]
    cases step s l with
    | ok s' => exact ih s'
    | throw w => rfl
    | ub w => rfl

theorem Mesh.loadWith_skip {step : LoadState α → List Char → Res (LoadState α)} {c : List Char} (hc : ∀ s, step s c = .ok s)
    (A B : List (List Char)) (ext : List Char) (m : Mesh α) (path : List Char) :
    Mesh.loadWith step ext m path (some (A ++ c :: B)) = Mesh.loadWith step ext m path (some (A ++ B)) := by
  unfold Mesh.loadWith
  simp only [Mesh.lineLoop_skip hc]

theorem Spec.CommentLine.step (np : NumParse α) (pose : Affine α) {c : List Char} (hc : CommentLine c) (s : Mesh.LoadState α) :
    Mesh.rdfLine np pose s c = .ok s := by
  obtain ⟨pre, ch, rest, rfl, hb, hch⟩ := hc
  have hns : Text.isSpace ch = false := by rcases hch with rfl | rfl | rfl <;> rfl
  have ht : ∃ r, Text.firstToken (pre ++ ch :: rest) = ch :: r := by
    unfold Text.firstToken
    rw [Text.dropWhile_blank hb (by simpa using hns), List.takeWhile_cons, hns]
    exact ⟨_, rfl⟩
  obtain ⟨r, hr⟩ := ht
  unfold Mesh.rdfLine
  simp only [hr]
  rcases hch with rfl | rfl | rfl <;> simp [Mesh.tokenHead]

theorem Spec.NotVertexNorFace.step (np : NumParse α) (friction : α) (pose : Affine α) {c : List Char} (hc : NotVertexNorFace c)
    (s : Mesh.LoadState α) : Mesh.objLine np friction pose s c = .ok s := by
  have ht : Text.firstToken c ≠ "v".toList ∧ Text.firstToken c ≠ "f".toList := by
    rcases hc with hb | ⟨pre, w, rest, rfl, hb, hne, hw, hrest, h1, h2⟩
    · rw [Text.firstToken_blank hb]; decide
    · have hw' : ∀ d ∈ w, Text.isSpace d = false := by
        intro d hd
        rw [← Bool.not_eq_true, Text.isSpace_iff]
        have := hw d hd
        tauto
      have e : Text.firstToken (pre ++ w ++ rest) = w := by
        unfold Text.firstToken
        rw [List.append_assoc, Text.dropWhile_blank hb]
        · rw [List.takeWhile_append_of_pos (by intro d hd; simp [hw' d hd])]
          cases rest with
          | nil => simp
          | cons d rest =>
            have hd : Text.isSpace d = true := (Text.isSpace_iff d).2 (hrest d rfl)
            rw [List.takeWhile_cons, hd]
            simp
        · cases w with
          | nil => exact absurd rfl hne
          | cons d w => intro x hx; cases hx; exact hw' _ (by simp)
      rw [e]
      exact ⟨h1, h2⟩
  unfold Mesh.objLine
  simp only [ht.1, ht.2, if_false]

/-- **C142**, in any arithmetic: a comment line may be added to or removed from a text, readable or not, at any place: the outcome of
loading and the mesh, also the one that an exception leaves behind, are the same. -/
theorem C142_comment (np : NumParse α) (m : Mesh α) (path : List Char) (A B : List (List Char)) (pose : Affine α) :
    (∀ c, CommentLine c → Mesh.loadRdf np m path (some (A ++ c :: B)) pose = Mesh.loadRdf np m path (some (A ++ B)) pose) ∧
    ∀ c, NotVertexNorFace c → ∀ friction,
      Mesh.loadObj np m path (some (A ++ c :: B)) friction pose = Mesh.loadObj np m path (some (A ++ B)) friction pose :=
  ⟨fun _ hc => Mesh.loadWith_skip (hc.step np pose) A B _ m path,
    fun _ hc friction => Mesh.loadWith_skip (hc.step np friction pose) A B _ m path⟩

/-- A comment over several lines: it is opened by `{` and closed by the first `}`. -/
def Spec.BlockComment (ls : List (List Char)) : Prop :=
  ∃ pre rest mid last, ls = (pre ++ '{' :: rest) :: (mid ++ [last]) ∧ Blank pre ∧ '}' ∉ rest ∧ (∀ l ∈ mid, '}' ∉ l) ∧ '}' ∈ last

/-! ## Two texts -/

namespace FileText

theorem wl {l : List Char} {ws : List (List Char)} (h1 : ∀ c ∈ l, c ≠ '\t' ∧ c ≠ '\r' ∧ c ≠ '\n')
    (h2 : Text.split l = ws) : WordLine l ws := ⟨h1, (Text.words_iff l ws).2 h2⟩

theorem nres {w : List Char} (h : w.head? ≠ some '{' ∧ w.head? ≠ some '%' ∧
    w.head? ≠ some '#' ∧ w ≠ "[NODES]".toList ∧ w ≠ "NODES".toList ∧ w ≠ "[ELEMENTS]".toList ∧
    w ≠ "ELEMENTS".toList) : ¬ Reserved w := by
  simp only [Reserved, CommentWord, NodesWord, ElementsWord]
  tauto

theorem header : RdfMeans demoNum.stod demoNum.stoi "[NODES]".toList .nodesHeader :=
  .nodes (wl (ws := ["[NODES]".toList]) (by decide) (by decide)) (Or.inl rfl)

theorem header' : RdfMeans demoNum.stod demoNum.stoi "[ELEMENTS]".toList .elementsHeader :=
  .elements (wl (ws := ["[ELEMENTS]".toList]) (by decide) (by decide)) (Or.inl rfl)

theorem node {l id a b c : List Char} {x y z : ℝ} (h1 : ∀ c ∈ l, c ≠ '\t' ∧ c ≠ '\r' ∧ c ≠ '\n') (h2 : Text.split l = [id, a, b, c])
    (h3 : id.head? ≠ some '{' ∧ id.head? ≠ some '%' ∧ id.head? ≠ some '#' ∧ id ≠ "[NODES]".toList ∧ id ≠ "NODES".toList ∧
      id ≠ "[ELEMENTS]".toList ∧ id ≠ "ELEMENTS".toList)
    (ha : demoNum.stod a = some x) (hb : demoNum.stod b = some y) (hc : demoNum.stod c = some z) :
    RdfMeans demoNum.stod demoNum.stoi l (.node x y z) := .node (wl h1 h2) (nres h3) ha hb hc

theorem element : RdfMeans demoNum.stod demoNum.stoi "0 1 2 1".toList (.element 0 1 2 1) :=
  .element (wl (ws := ["0".toList, "1".toList, "2".toList, "1".toList]) (by decide) (by decide))
    (nres (by decide)) rfl rfl rfl rfl

/-- A text whose first two nodes have the numbers one and zero. -/
def swapped : List (List Char) :=
  ["[NODES]".toList, "1 0 0 0".toList, "0 1 0 0".toList, "2 0 1 0".toList, "[ELEMENTS]".toList, "0 1 2 1".toList]

theorem swapped_text : RdfText demoNum.stod demoNum.stoi (fun f => (zero <=. f) = true) swapped
    [(0, 0, 0), (1, 0, 0), (0, 1, 0)] [(0, 1, 2, 1)] where
  ex := ⟨[], [.node 0 0 0, .node 1 0 0, .node 0 1 0], [.element 0 1 2 1],
    .cons header (.cons (node (id := "1".toList) (a := "0".toList) (b := "0".toList) (c := "0".toList) (by decide) (by decide)
      (by decide) rfl rfl rfl) (.cons (node (id := "0".toList) (a := "1".toList) (b := "0".toList) (c := "0".toList) (by decide)
      (by decide) (by decide) rfl rfl rfl) (.cons (node (id := "2".toList) (a := "0".toList) (b := "1".toList) (c := "0".toList)
      (by decide) (by decide) (by decide) rfl rfl rfl) (.cons header' (.cons element .nil))))),
    by simp, by simp, by simp, rfl, rfl⟩
  range := by
    intro i j k f h
    simp at h
    obtain ⟨rfl, rfl, rfl, rfl⟩ := h
    simp
  ne := by simp

/-- The same nodes, numbered in order. -/
def inOrder : List (List Char) :=
  ["[NODES]".toList, "0 0 0 0".toList, "1 1 0 0".toList, "2 0 1 0".toList, "[ELEMENTS]".toList, "0 1 2 1".toList]

theorem inOrder_text : RdfText demoNum.stod demoNum.stoi (fun f => (zero <=. f) = true) inOrder
    [(0, 0, 0), (1, 0, 0), (0, 1, 0)] [(0, 1, 2, 1)] where
  ex := ⟨[], [.node 0 0 0, .node 1 0 0, .node 0 1 0], [.element 0 1 2 1],
    .cons header (.cons (node (id := "0".toList) (a := "0".toList) (b := "0".toList) (c := "0".toList) (by decide) (by decide)
      (by decide) rfl rfl rfl) (.cons (node (id := "1".toList) (a := "1".toList) (b := "0".toList) (c := "0".toList) (by decide)
      (by decide) (by decide) rfl rfl rfl) (.cons (node (id := "2".toList) (a := "0".toList) (b := "1".toList) (c := "0".toList)
      (by decide) (by decide) (by decide) rfl rfl rfl) (.cons header' (.cons element .nil))))),
    by simp, by simp, by simp, rfl, rfl⟩
  range := by
    intro i j k f h
    simp at h
    obtain ⟨rfl, rfl, rfl, rfl⟩ := h
    simp
  ne := by simp

/-- A node that is commented out. -/
def block : List (List Char) := ["{ old".toList, "1 1 1 1".toList, "# }".toList]

theorem block_comment : BlockComment block :=
  ⟨[], " old".toList, ["1 1 1 1".toList], "# }".toList, rfl, (by intro c hc; cases hc), by decide, by simp, by decide⟩

/-- The text with a node commented out. -/
theorem outcommented_text : RdfText demoNum.stod demoNum.stoi (fun f => (zero <=. f) = true)
    (inOrder.take 2 ++ block ++ inOrder.drop 2) [(0, 0, 0), (1, 1, 1), (1, 0, 0), (0, 1, 0)] [(0, 1, 2, 1)] where
  ex := ⟨[], [.node 0 0 0, .comment, .node 1 1 1, .comment, .node 1 0 0, .node 0 1 0], [.element 0 1 2 1],
    .cons header (.cons (node (id := "0".toList) (a := "0".toList) (b := "0".toList) (c := "0".toList) (by decide) (by decide)
      (by decide) rfl rfl rfl)
      (.cons (.comment (wl (ws := ["{".toList, "old".toList]) (by decide) (by decide)) (by simp [CommentWord]))
      (.cons (node (id := "1".toList) (a := "1".toList) (b := "1".toList) (c := "1".toList) (by decide)
      (by decide) (by decide) rfl rfl rfl)
      (.cons (.comment (wl (ws := ["#".toList, "}".toList]) (by decide) (by decide)) (by simp [CommentWord]))
      (.cons (node (id := "1".toList) (a := "1".toList) (b := "0".toList) (c := "0".toList) (by decide)
      (by decide) (by decide) rfl rfl rfl) (.cons (node (id := "2".toList) (a := "0".toList) (b := "1".toList) (c := "0".toList)
      (by decide) (by decide) (by decide) rfl rfl rfl) (.cons header' (.cons element .nil)))))))),
    by simp, by simp, by simp, rfl, rfl⟩
  range := by
    intro i j k f h
    simp at h
    obtain ⟨rfl, rfl, rfl, rfl⟩ := h
    simp
  ne := by simp

end FileText

/-- **C141** (refuted): a well formed text whose element lists a node number, and a loaded face that has not the node with this number as
its vertex. -/
theorem C141_numbered_refuted (pose : Affine ℝ) (hinj : ∀ x y, pose.apply x = pose.apply y → x = y) :
    ∃ (lines : List (List Char)) (nodes : List (ℝ × ℝ × ℝ)) (elements : List (Nat × Nat × Nat × ℝ)) (m : Mesh ℝ)
      (t : TriangleGround ℝ) (j k : Nat) (f : ℝ) (p : ℝ × ℝ × ℝ),
      RdfText demoNum.stod demoNum.stoi (fun f => (zero <=. f) = true) lines nodes elements ∧
      Mesh.ofRdf demoNum "a.rdf".toList (some lines) pose = .ok m ∧ elements[0]? = some (0, j, k, f) ∧ m.triangles[0]? = some t ∧
      ListsNode demoNum.stod demoNum.stoi lines 0 p ∧ t.tri.v0 ≠ pose.apply ⟨p.1, p.2.1, p.2.2⟩ := by
  obtain ⟨m, -, h1, -, h3⟩ := C19_rdf_load demoNum "a".toList _ pose _ _ FileText.swapped_text
  obtain ⟨t, p, q, r, t1, n1, -, -, -, -, v0, -⟩ := h3 0 0 1 2 1 rfl
  cases n1
  refine ⟨_, _, _, m, t, 1, 2, 1, (1, 0, 0), FileText.swapped_text, h1, rfl, t1,
    ⟨[], "[NODES]".toList, "[NODES]".toList, [], ["1 0 0 0".toList], "0 1 0 0".toList,
      ["2 0 1 0".toList, "[ELEMENTS]".toList, "0 1 2 1".toList], "0".toList, "1".toList, "0".toList, "0".toList, rfl,
      FileText.wl (by decide) (by decide), .inl rfl, ?_, FileText.wl (by decide) (by decide), FileText.nres (by decide), rfl, rfl, rfl,
      rfl⟩, fun h => ?_⟩
  · intro l' hl' w ws hw he
    simp only [List.mem_singleton] at hl'
    subst hl'
    have := (Text.words_iff _ _).1 hw.2
    have e : Text.split "1 0 0 0".toList = ["1".toList, "0".toList, "0".toList, "0".toList] := by decide
    rw [e] at this
    cases this
    rcases he with he | he <;> exact absurd he (by decide)
  · rw [v0] at h
    have := hinj _ _ h
    simp at this

/-- **C142** (refuted for comments over several lines): the lines after the first are read.  Here a node that is commented out is read as
a node, so that the elements refer to other nodes, and nothing is reported. -/
theorem C142_block_refuted (pose : Affine ℝ) (hinj : ∀ x y, pose.apply x = pose.apply y → x = y) :
    ∃ (A B block : List (List Char)) (m m' : Mesh ℝ) (t t' : TriangleGround ℝ), BlockComment block ∧
      Mesh.ofRdf demoNum "a.rdf".toList (some (A ++ B)) pose = .ok m ∧
      Mesh.ofRdf demoNum "a.rdf".toList (some (A ++ block ++ B)) pose = .ok m' ∧
      m.triangles[0]? = some t ∧ m'.triangles[0]? = some t' ∧ t'.tri.v1 ≠ t.tri.v1 := by
  obtain ⟨m, -, h1, -, h3⟩ := C19_rdf_load demoNum "a".toList _ pose _ _ FileText.inOrder_text
  obtain ⟨m', -, h1', -, h3'⟩ := C19_rdf_load demoNum "a".toList _ pose _ _ FileText.outcommented_text
  obtain ⟨t, p, q, r, t1, n1, n2, -, -, -, -, v1, -⟩ := h3 0 0 1 2 1 rfl
  obtain ⟨t', p', q', r', t1', n1', n2', -, -, -, -, v1', -⟩ := h3' 0 0 1 2 1 rfl
  cases n2
  cases n2'
  refine ⟨_, _, _, m, m', t, t', FileText.block_comment, ?_, h1', t1, t1', fun h => ?_⟩
  · rw [List.take_append_drop]; exact h1
  · rw [v1, v1'] at h
    have := hinj _ _ h
    simp at this

/-! ### Examples -/

/-- The identity is injective. -/
example : ∀ x y : V3 ℝ, (Affine.id : Affine ℝ).apply x = (Affine.id : Affine ℝ).apply y → x = y := by
  intro x y h
  simpa [Affine.id, Affine.apply, M3.mulVec, V3.real_add, M3.id, V3.ext_iff, V3.ex, V3.ey, V3.ez] using h

/-- Comments with blanks before them, and lines of an OBJ text that are neither vertices nor faces. -/
example : CommentLine "  { id  x  y  z }".toList ∧ CommentLine "\t# road".toList ∧ NotVertexNorFace "vn 0 0 1".toList ∧
    NotVertexNorFace "\r".toList := by
  refine ⟨⟨"  ".toList, '{', _, rfl, ?_, .inl rfl⟩, ⟨"\t".toList, '#', _, rfl, ?_, .inr (.inr rfl)⟩,
    .inr ⟨[], "vn".toList, " 0 0 1".toList, rfl, ?_, ?_, ?_, ?_, ?_, ?_⟩, .inl ?_⟩
  all_goals (first | decide | (intro c hc; revert c; decide) | (unfold Blank; decide))

/-- Both texts list the same nodes with different numbers. -/
example : ∃ m m', Mesh.ofRdf demoNum "a.rdf".toList (some FileText.inOrder) Affine.id = .ok m ∧
    Mesh.ofRdf demoNum "a.rdf".toList (some FileText.swapped) Affine.id = .ok m' ∧
    List.Forall₂ (fun t t' => t'.tri = t.tri ∧ t'.friction = t.friction ∧ t'.id = t.id) m.triangles m'.triangles :=
  C141_numbers_unread_refuted demoNum "a".toList _ _ _ _ _ FileText.inOrder_text FileText.swapped_text

theorem FileText.words_eq {l w : List Char} {ws vs : List (List Char)} (h : WordLine l (w :: ws)) (h' : Text.split l = vs) : vs = w :: ws :=
  h'.symm.trans ((Text.words_iff _ _).1 h.2)

/-- In this text the numbers are the positions. -/
example (n : Nat) (p : ℝ × ℝ × ℝ) (h : ListsNode demoNum.stod demoNum.stoi FileText.inOrder n p) :
    ([(0, 0, 0), (1, 0, 0), (0, 1, 0)] : List (ℝ × ℝ × ℝ))[n]? = some p := by
  obtain ⟨pre, hd, w, ws, body, l, post, id, a, b, c, e, hh, hn, hb, hl, -, hid, ha, hc, hz⟩ := h
  have key : ∀ l' : List Char, ∀ vs : List (List Char), Text.split l' = vs → l' = hd → ∃ us, vs = w :: us := by
    intro l' vs hs e; subst e; exact ⟨_, FileText.words_eq hh hs⟩
  have nodeLine : ∀ (l' a' b' c' d' : List Char), Text.split l' = [a', b', c', d'] → l = l' → id = a' ∧ a = b' ∧ b = c' ∧ c = d' := by
    intro l' a' b' c' d' hs e
    subst e
    have := FileText.words_eq hl hs
    simp only [List.cons.injEq, and_true] at this
    tauto
  have no : ∀ l' : List Char, ∀ vs : List (List Char), Text.split l' = vs → vs.length ≠ 4 → l ≠ l' := by
    intro l' vs hs hv e
    subst e
    rw [FileText.words_eq hl hs] at hv
    exact hv rfl
  have notNodes : ∀ (l' v : List Char) (vs : List (List Char)), Text.split l' = v :: vs → ¬ NodesWord v → l' ≠ hd := by
    intro l' v vs hs hv e
    obtain ⟨us, hu⟩ := key l' _ hs e
    cases hu
    exact hv hn
  have hel : "[ELEMENTS]".toList ∉ body := fun hm =>
    hb _ hm "[ELEMENTS]".toList [] (FileText.wl (by decide) (by decide)) (.inl rfl)
  have d0 : demoNum.stod "0".toList = some 0 := rfl
  have d1 : demoNum.stod "1".toList = some 1 := rfl
  have j0 : demoNum.stoi "0".toList = some 0 := rfl
  have j1 : demoNum.stoi "1".toList = some 1 := rfl
  have j2 : demoNum.stoi "2".toList = some 2 := rfl
  have nn : ∀ v : List Char, v.head? ≠ some '[' → v.head? ≠ some 'N' → ¬ NodesWord v := by
    rintro v h1 h2 (rfl | rfl)
    · exact h1 rfl
    · exact h2 rfl
  unfold FileText.inOrder at e
  rcases pre with _ | ⟨x, pre⟩
  · simp only [List.nil_append, List.cons.injEq] at e
    obtain ⟨-, e⟩ := e
    obtain ⟨p1, p2, p3⟩ := p
    dsimp only at ha hc hz
    rcases body with _ | ⟨x1, body⟩
    · simp only [List.nil_append, List.cons.injEq] at e
      obtain ⟨r1, r2, r3, r4⟩ := nodeLine _ "0".toList "0".toList "0".toList "0".toList (by decide) e.1.symm
      subst r1 r2 r3 r4
      rw [j0] at hid; rw [d0] at ha hc hz
      cases ha; cases hc; cases hz
      obtain rfl : n = 0 := by simpa using (Option.some.inj hid).symm
      rfl
    rcases body with _ | ⟨x2, body⟩
    · simp only [List.cons_append, List.nil_append, List.cons.injEq] at e
      obtain ⟨r1, r2, r3, r4⟩ := nodeLine _ "1".toList "1".toList "0".toList "0".toList (by decide) e.2.1.symm
      subst r1 r2 r3 r4
      rw [j1] at hid; rw [d0] at hc hz; rw [d1] at ha
      cases ha; cases hc; cases hz
      obtain rfl : n = 1 := by have := Option.some.inj hid; omega
      rfl
    rcases body with _ | ⟨x3, body⟩
    · simp only [List.cons_append, List.nil_append, List.cons.injEq] at e
      obtain ⟨r1, r2, r3, r4⟩ := nodeLine _ "2".toList "0".toList "1".toList "0".toList (by decide) e.2.2.1.symm
      subst r1 r2 r3 r4
      rw [j2] at hid; rw [d0] at ha hz; rw [d1] at hc
      cases ha; cases hc; cases hz
      obtain rfl : n = 2 := by have := Option.some.inj hid; omega
      rfl
    rcases body with _ | ⟨x4, body⟩
    · simp only [List.cons_append, List.nil_append, List.cons.injEq] at e
      exact absurd e.2.2.2.1.symm (no _ ["[ELEMENTS]".toList] (by decide) (by decide))
    · simp only [List.cons_append, List.cons.injEq] at e
      exact absurd (by rw [e.2.2.2.1]; simp) hel
  · exfalso
    have hmem : hd ∈ ["0 0 0 0".toList, "1 1 0 0".toList, "2 0 1 0".toList, "[ELEMENTS]".toList, "0 1 2 1".toList] := by
      simp only [List.cons_append, List.cons.injEq] at e
      rw [e.2]; simp
    simp only [List.mem_cons, List.not_mem_nil, or_false] at hmem
    rcases hmem with h | h | h | h | h
    · exact notNodes _ "0".toList ["0".toList, "0".toList, "0".toList] (by decide) (nn _ (by decide) (by decide)) h.symm
    · exact notNodes _ "1".toList ["1".toList, "0".toList, "0".toList] (by decide) (nn _ (by decide) (by decide)) h.symm
    · exact notNodes _ "2".toList ["0".toList, "1".toList, "0".toList] (by decide) (nn _ (by decide) (by decide)) h.symm
    · exact notNodes _ "[ELEMENTS]".toList [] (by decide) (by rintro (h | h) <;> exact absurd h (by decide)) h.symm
    · exact notNodes _ "0".toList ["1".toList, "2".toList, "1".toList] (by decide) (nn _ (by decide) (by decide)) h.symm

end Enve
