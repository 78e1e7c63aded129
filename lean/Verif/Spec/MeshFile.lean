import Verif.Spec.Text
import Mathlib.Data.List.Forall2

/-! # Mesh file formats

What a line of an `*.rdf` / `*.obj` text means and what a well formed text is.  `stod` and `stoi`
are the number readers; nothing here refers to the loader. -/

namespace Enve.Spec
variable {α : Type}

/-- A line made of the given words, with no tabs or stray line ends. -/
def WordLine (l : List Char) (ws : List (List Char)) : Prop := Clean l ∧ Words l ws

/-! ## RDF -/

/-- The contents of one RDF line. -/
inductive RdfLine (α : Type) where
  | comment
  | nodesHeader
  | elementsHeader
  | node (x y z : α)
  | element (i j k : Nat) (friction : α)

/-- Words that start a comment (`{`, `%`, `#`). -/
def CommentWord (w : List Char) : Prop := w.head? = some '{' ∨ w.head? = some '%' ∨ w.head? = some '#'
/-- Words that open the NODES section. -/
def NodesWord (w : List Char) : Prop := w = "[NODES]".toList ∨ w = "NODES".toList
/-- Words that open the ELEMENTS section. -/
def ElementsWord (w : List Char) : Prop := w = "[ELEMENTS]".toList ∨ w = "ELEMENTS".toList
/-- Words with a special meaning. -/
def Reserved (w : List Char) : Prop := CommentWord w ∨ NodesWord w ∨ ElementsWord w

/-- The meaning of a line of an RDF text. -/
inductive RdfMeans (stod : List Char → Option α) (stoi : List Char → Option Int) :
    List Char → RdfLine α → Prop where
  | comment {l w ws} : WordLine l (w :: ws) → CommentWord w → RdfMeans stod stoi l .comment
  | nodes {l w ws} : WordLine l (w :: ws) → NodesWord w → RdfMeans stod stoi l .nodesHeader
  | elements {l w ws} : WordLine l (w :: ws) → ElementsWord w →
      RdfMeans stod stoi l .elementsHeader
  | node {l id a b c x y z} : WordLine l [id, a, b, c] → ¬ Reserved id → stod a = some x →
      stod b = some y → stod c = some z → RdfMeans stod stoi l (.node x y z)
  | element {l a b c d} {i j k : Nat} {f} : WordLine l [a, b, c, d] → ¬ Reserved a →
      stoi a = some (i : Int) → stoi b = some (j : Int) → stoi c = some (k : Int) →
      stod d = some f → RdfMeans stod stoi l (.element i j k f)

/-- The node on a line, if any. -/
def RdfLine.node? : RdfLine α → Option (α × α × α)
  | .node x y z => some (x, y, z)
  | _ => none
/-- The element on a line, if any. -/
def RdfLine.element? : RdfLine α → Option (Nat × Nat × Nat × α)
  | .element i j k f => some (i, j, k, f)
  | _ => none

/-- A well formed RDF text with the given nodes and elements: comments, the NODES section, the
ELEMENTS section (non-empty), comments allowed anywhere, every element refers to listed nodes and has
a friction accepted by `nonneg`. -/
structure RdfText (stod : List Char → Option α) (stoi : List Char → Option Int) (nonneg : α → Prop)
    (lines : List (List Char)) (nodes : List (α × α × α)) (elements : List (Nat × Nat × Nat × α)) :
    Prop where
  ex : ∃ pre body els : List (RdfLine α),
    List.Forall₂ (RdfMeans stod stoi) lines
      (pre ++ .nodesHeader :: (body ++ .elementsHeader :: els)) ∧
    (∀ k ∈ pre, k = .comment) ∧
    (∀ k ∈ body, k = .comment ∨ ∃ x y z, k = .node x y z) ∧
    (∀ k ∈ els, k = .comment ∨ ∃ i j m f, k = .element i j m f) ∧
    nodes = body.filterMap RdfLine.node? ∧ elements = els.filterMap RdfLine.element?
  range : ∀ i j k f, (i, j, k, f) ∈ elements →
    i < nodes.length ∧ j < nodes.length ∧ k < nodes.length ∧ nonneg f
  ne : elements ≠ []

/-! ### Reading an RDF text line by line

A description of *every* text that can be read, not only the well formed ones above: data before the
first header is skipped, sections may be reopened. -/

/-- The two sections. -/
inductive Section where
  | nodes
  | elements

/-- What has been read so far. -/
structure RdfState (α : Type) where
  sec : Option Section
  nodes : List (α × α × α)
  elements : List (Nat × Nat × Nat × α)

/-- Nothing read yet. -/
def RdfState.init : RdfState α := ⟨none, [], []⟩

/-- Reading one more line. -/
inductive RdfStep (stod : List Char → Option α) (stoi : List Char → Option Int)
    (nonneg : α → Prop) : RdfState α → List Char → RdfState α → Prop where
  | comment {st l} : RdfMeans stod stoi l .comment → RdfStep stod stoi nonneg st l st
  | nodes {st l} : RdfMeans stod stoi l .nodesHeader →
      RdfStep stod stoi nonneg st l ⟨some .nodes, st.nodes, st.elements⟩
  | elements {st l} : RdfMeans stod stoi l .elementsHeader →
      RdfStep stod stoi nonneg st l ⟨some .elements, st.nodes, st.elements⟩
  | skipped {ns es l ws} : WordLine l ws → (∀ w ∈ ws.head?, ¬ Reserved w) →
      RdfStep stod stoi nonneg ⟨none, ns, es⟩ l ⟨none, ns, es⟩
  | node {ns es l x y z} : RdfMeans stod stoi l (.node x y z) →
      RdfStep stod stoi nonneg ⟨some .nodes, ns, es⟩ l ⟨some .nodes, ns ++ [(x, y, z)], es⟩
  | element {ns es l} {i j k : Nat} {f} : RdfMeans stod stoi l (.element i j k f) →
      i < ns.length → j < ns.length → k < ns.length → nonneg f →
      RdfStep stod stoi nonneg ⟨some .elements, ns, es⟩ l
        ⟨some .elements, ns, es ++ [(i, j, k, f)]⟩

/-- Reading a list of lines. -/
inductive RdfReads (stod : List Char → Option α) (stoi : List Char → Option Int)
    (nonneg : α → Prop) : RdfState α → List (List Char) → RdfState α → Prop where
  | nil {st} : RdfReads stod stoi nonneg st [] st
  | cons {st l st' ls st''} : RdfStep stod stoi nonneg st l st' →
      RdfReads stod stoi nonneg st' ls st'' → RdfReads stod stoi nonneg st (l :: ls) st''

/-! ## OBJ -/

/-- The contents of one OBJ line. -/
inductive ObjLine (α : Type) where
  | other
  | vertex (x y z : α)
  | face (i j k : Nat)

/-- The meaning of a line of an OBJ text; face indices count from one.  Lines whose first word is
neither `v` nor `f`, and empty lines, are ignored. -/
inductive ObjMeans (stod : List Char → Option α) (stoi : List Char → Option Int) :
    List Char → ObjLine α → Prop where
  | blank {l} : Blank l → ObjMeans stod stoi l .other
  | other {l w ws} : WordLine l (w :: ws) → w ≠ "v".toList → w ≠ "f".toList →
      ObjMeans stod stoi l .other
  | vertex {l a b c x y z} : WordLine l ["v".toList, a, b, c] → stod a = some x →
      stod b = some y → stod c = some z → ObjMeans stod stoi l (.vertex x y z)
  | face {l a b c} {i j k : Nat} : WordLine l ["f".toList, a, b, c] →
      stoi a = some (i : Int) → stoi b = some (j : Int) → stoi c = some (k : Int) →
      ObjMeans stod stoi l (.face i j k)

/-- What has been read so far of an OBJ text. -/
structure ObjState (α : Type) where
  vertices : List (α × α × α)
  faces : List (Nat × Nat × Nat)

/-- Nothing read yet. -/
def ObjState.init : ObjState α := ⟨[], []⟩

/-- Reading one more line; a face must refer to vertices already listed, counted from one. -/
inductive ObjStep (stod : List Char → Option α) (stoi : List Char → Option Int) :
    ObjState α → List Char → ObjState α → Prop where
  | other {st l} : ObjMeans stod stoi l .other → ObjStep stod stoi st l st
  | vertex {vs fs l x y z} : ObjMeans stod stoi l (.vertex x y z) →
      ObjStep stod stoi ⟨vs, fs⟩ l ⟨vs ++ [(x, y, z)], fs⟩
  | face {vs fs l} {i j k : Nat} : ObjMeans stod stoi l (.face i j k) →
      (1 ≤ i ∧ i ≤ vs.length) → (1 ≤ j ∧ j ≤ vs.length) → (1 ≤ k ∧ k ≤ vs.length) →
      ObjStep stod stoi ⟨vs, fs⟩ l ⟨vs, fs ++ [(i, j, k)]⟩

/-- Reading a list of lines. -/
inductive ObjReads (stod : List Char → Option α) (stoi : List Char → Option Int) :
    ObjState α → List (List Char) → ObjState α → Prop where
  | nil {st} : ObjReads stod stoi st [] st
  | cons {st l st' ls st''} : ObjStep stod stoi st l st' →
      ObjReads stod stoi st' ls st'' → ObjReads stod stoi st (l :: ls) st''

end Enve.Spec
