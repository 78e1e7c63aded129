import Verif.Lemmas.Loader

/-! # Reading RDF texts -/

namespace Enve
open Scalar Spec
variable {α : Type} [Scalar α]

namespace Mesh

/-! ## Single lines -/

theorem tokenHead_ne {w : List Char} {c : Char} (h : w.head? ≠ some c) (hw : w ≠ []) :
    tokenHead w ≠ c := by
  cases w with
  | nil => exact absurd rfl hw
  | cons d ds => simp [tokenHead] at *; exact h

theorem words_head_ne {l w : List Char} {ws : List (List Char)} (h : Words l (w :: ws)) :
    w ≠ [] ∧ ' ' ∉ w ∧ ∀ c ∈ w, c ∈ l := by
  generalize hk : w :: ws = k at h
  induction h with
  | nil => cases hk
  | space _ ih =>
    obtain ⟨h1, h2, h3⟩ := ih hk
    exact ⟨h1, h2, fun c hc => List.mem_cons_of_mem _ (h3 c hc)⟩
  | word hw hs _ _ _ =>
    cases hk
    exact ⟨hw, hs, fun c hc => List.mem_append_left _ hc⟩

theorem rdfLine_comment {np : NumParse α} {pose : Affine α} {s : LoadState α} {l w : List Char}
    {ws : List (List Char)} (hl : WordLine l (w :: ws)) (hw : CommentWord w) :
    rdfLine np pose s l = .ok s := by
  have ht := (Text.words_first_tail hl.1 hl.2).1
  unfold rdfLine
  simp only [ht]
  cases w with
  | nil => simp [CommentWord] at hw
  | cons c cs =>
    simp only [CommentWord, List.head?_cons, Option.some.injEq] at hw
    rw [if_neg, if_neg]
    · rcases hw with rfl | rfl | rfl <;> simp [tokenHead]
    · rcases hw with rfl | rfl | rfl <;> simp
    · rcases hw with rfl | rfl | rfl <;> simp

theorem rdfLine_nodes {np : NumParse α} {pose : Affine α} {s : LoadState α} {l w : List Char}
    {ws : List (List Char)} (hl : WordLine l (w :: ws)) (hw : NodesWord w) :
    rdfLine np pose s l = .ok { s with nodesParse := true, elementsParse := false } := by
  have ht := (Text.words_first_tail hl.1 hl.2).1
  unfold rdfLine
  simp only [ht]
  exact if_pos hw

theorem rdfLine_elements {np : NumParse α} {pose : Affine α} {s : LoadState α} {l w : List Char}
    {ws : List (List Char)} (hl : WordLine l (w :: ws)) (hw : ElementsWord w) :
    rdfLine np pose s l = .ok { s with nodesParse := false, elementsParse := true } := by
  have ht := (Text.words_first_tail hl.1 hl.2).1
  unfold rdfLine
  simp only [ht]
  rw [if_neg]
  · exact if_pos hw
  · rcases hw with rfl | rfl <;> decide

theorem rdfLine_data {np : NumParse α} {pose : Affine α} {s : LoadState α} {l w : List Char}
    {ws : List (List Char)} (hl : WordLine l (w :: ws)) (hw : ¬ Reserved w) :
    rdfLine np pose s l = (rdfNode np pose s l >>= fun s => rdfElement np s l) := by
  have ht := (Text.words_first_tail hl.1 hl.2).1
  obtain ⟨hne, -, hmem⟩ := words_head_ne hl.2
  simp only [Reserved, not_or, CommentWord] at hw
  obtain ⟨⟨h1, h2, h3⟩, h4, h5⟩ := hw
  have hr : w.head? ≠ some '\r' := by
    cases w with
    | nil => exact absurd rfl hne
    | cons c cs =>
      have := (hl.1 c (hmem c (by simp))).2.1
      simpa using this
  unfold rdfLine
  simp only [ht]
  refine (if_neg h4).trans ((if_neg h5).trans ((if_neg (tokenHead_ne h1 hne)).trans (if_neg ?_)))
  rintro (h | h | h)
  · exact tokenHead_ne h2 hne h
  · exact tokenHead_ne h3 hne h
  · exact tokenHead_ne hr hne h

theorem parseNode_of {np : NumParse α} {pose : Affine α} {l id a b c : List Char} {x y z : α}
    (hl : WordLine l [id, a, b, c]) (ha : np.stod a = some x) (hb : np.stod b = some y)
    (hc : np.stod c = some z) : parseNode np pose l = .ok (pose.apply ⟨x, y, z⟩) := by
  have ht := Text.split_of_words (Text.words_first_tail hl.1 hl.2).2
  simp [parseNode, ht, stod, ha, hb, hc]

theorem make_eq {id : Int} {f : α} (p q r : V3 α) (hf : (zero <=. f) = true) :
    ∃ t, TriangleGround.make id f p q r = .ok t ∧ t.id = id ∧ t.friction = f ∧
      t.tri = ⟨p, q, r⟩ := by
  refine ⟨_, by simp only [TriangleGround.make, hf, Res.assert_true, Res.bind_ok]; rfl, rfl, rfl, rfl⟩

theorem parseRdfElement_of {np : NumParse α} {nodes : List (V3 α)} {id : Nat}
    {l a b c d : List Char} {i j k : Nat} {f : α} {p q r : V3 α} {ws : List (List Char)}
    (hws : ws = [a, b, c, d]) (hl : WordLine l ws)
    (ha : np.stoi a = some (i : Int)) (hb : np.stoi b = some (j : Int))
    (hc : np.stoi c = some (k : Int)) (hd : np.stod d = some f) (hf : (zero <=. f) = true)
    (hp : nodes[i]? = some p) (hq : nodes[j]? = some q) (hr : nodes[k]? = some r) :
    ∃ t, parseRdfElement np nodes id l = .ok t ∧ t.id = id ∧ t.friction = f ∧
      t.tri = ⟨p, q, r⟩ := by
  subst hws
  obtain ⟨t, h1, h2⟩ := make_eq (id := id) p q r hf
  refine ⟨t, ?_, h2⟩
  simp [parseRdfElement, Text.split_of_words hl.2, stoi, stod, ha, hb, hc, hd, hf, nodeAt, hp, hq,
    hr, h1]

/-! ## Sections -/

omit [Scalar α] in
theorem fm_node_comment (ks : List (RdfLine α)) :
    (RdfLine.comment :: ks).filterMap RdfLine.node? = ks.filterMap RdfLine.node? := rfl
omit [Scalar α] in
theorem fm_node_node (x y z : α) (ks : List (RdfLine α)) :
    (RdfLine.node x y z :: ks).filterMap RdfLine.node? =
      (x, y, z) :: ks.filterMap RdfLine.node? := rfl
omit [Scalar α] in
theorem fm_element_comment (ks : List (RdfLine α)) :
    (RdfLine.comment :: ks).filterMap RdfLine.element? = ks.filterMap RdfLine.element? := rfl
omit [Scalar α] in
theorem fm_element_element (i j k : Nat) (f : α) (ks : List (RdfLine α)) :
    (RdfLine.element i j k f :: ks).filterMap RdfLine.element? =
      (i, j, k, f) :: ks.filterMap RdfLine.element? := rfl

theorem lineLoop_comments {np : NumParse α} {pose : Affine α} {lines : List (List Char)}
    {pre : List (RdfLine α)} (h : List.Forall₂ (RdfMeans np.stod np.stoi) lines pre)
    (hc : ∀ k ∈ pre, k = .comment) (s : LoadState α) :
    lineLoop (rdfLine np pose) lines s = .ok s () := by
  induction h with
  | nil => rfl
  | cons hl _ ih =>
    have := hc _ (List.mem_cons_self ..)
    subst this
    cases hl with
    | comment hl hw =>
      simp only [lineLoop, rdfLine_comment hl hw]
      exact ih fun k hk => hc k (List.mem_cons_of_mem _ hk)

theorem lineLoop_nodes {np : NumParse α} {pose : Affine α} {lines : List (List Char)}
    {body : List (RdfLine α)} (h : List.Forall₂ (RdfMeans np.stod np.stoi) lines body)
    (hb : ∀ k ∈ body, k = .comment ∨ ∃ x y z, k = .node x y z) (s : LoadState α)
    (h1 : s.nodesParse = true) (h2 : s.elementsParse = false) :
    lineLoop (rdfLine np pose) lines s =
      .ok { s with nodes := s.nodes ++ (body.filterMap RdfLine.node?).map
                    (fun n => pose.apply ⟨n.1, n.2.1, n.2.2⟩) } () := by
  induction h generalizing s with
  | nil => simp [lineLoop]
  | @cons l k ls ks hl _ ih =>
    have hk := hb k (List.mem_cons_self ..)
    have hrest : ∀ k ∈ ks, k = .comment ∨ ∃ x y z, k = .node x y z :=
      fun k hk => hb k (List.mem_cons_of_mem _ hk)
    rcases hk with rfl | ⟨x, y, z, rfl⟩
    · cases hl with
      | comment hl hw =>
        simp only [lineLoop, rdfLine_comment hl hw]
        rw [ih hrest s h1 h2, fm_node_comment]
    · cases hl with
      | node hl hr ha hb hc =>
        have e : rdfLine np pose s l = .ok { s with nodes := s.nodes ++ [pose.apply ⟨x, y, z⟩] } := by
          rw [rdfLine_data hl hr]
          simp [rdfNode, rdfElement, h1, h2, parseNode_of hl ha hb hc]
        simp only [lineLoop, e]
        rw [ih hrest { s with nodes := s.nodes ++ [pose.apply ⟨x, y, z⟩] } h1 h2, fm_node_node]
        simp

theorem lineLoop_elements {np : NumParse α} {pose : Affine α} {lines : List (List Char)}
    {els : List (RdfLine α)} (h : List.Forall₂ (RdfMeans np.stod np.stoi) lines els)
    (hb : ∀ k ∈ els, k = .comment ∨ ∃ i j m f, k = .element i j m f) (s : LoadState α)
    (h1 : s.nodesParse = false) (h2 : s.elementsParse = true)
    (hr : ∀ i j k f, (i, j, k, f) ∈ els.filterMap RdfLine.element? →
      i < s.nodes.length ∧ j < s.nodes.length ∧ k < s.nodes.length ∧ (zero <=. f) = true) :
    ∃ new : List (TriangleGround α), lineLoop (rdfLine np pose) lines s =
        .ok { s with triangles := s.triangles ++ new,
                     elements := s.elements + (els.filterMap RdfLine.element?).length } () ∧
      new.length = (els.filterMap RdfLine.element?).length ∧
      ∀ (n i j k : Nat) (f : α), (els.filterMap RdfLine.element?)[n]? = some (i, j, k, f) →
        ∃ t p q r, new[n]? = some t ∧ s.nodes[i]? = some p ∧ s.nodes[j]? = some q ∧
          s.nodes[k]? = some r ∧ t.tri = ⟨p, q, r⟩ ∧ t.friction = f := by
  induction h generalizing s with
  | nil => exact ⟨[], by simp [lineLoop], rfl, by simp⟩
  | @cons l k ls ks hl _ ih =>
    have hk := hb k (List.mem_cons_self ..)
    have hrest : ∀ k ∈ ks, k = .comment ∨ ∃ i j m f, k = .element i j m f :=
      fun k hk => hb k (List.mem_cons_of_mem _ hk)
    rcases hk with rfl | ⟨i, j, m, f, rfl⟩
    · cases hl with
      | comment hl hw =>
        simp only [lineLoop, rdfLine_comment hl hw]
        rw [fm_element_comment] at hr ⊢
        exact ih hrest s h1 h2 hr
    · cases hl with
      | element hl hres ha hb' hc hd =>
        rw [fm_element_element] at hr ⊢
        obtain ⟨r1, r2, r3, r4⟩ := hr i j m f (List.mem_cons_self ..)
        obtain ⟨t, ht, hid, hfr, htri⟩ := parseRdfElement_of (id := s.elements) rfl hl ha hb' hc hd r4
          (List.getElem?_eq_getElem r1) (List.getElem?_eq_getElem r2) (List.getElem?_eq_getElem r3)
        have e : rdfLine np pose s l =
            .ok { s with triangles := s.triangles ++ [t], elements := s.elements + 1 } := by
          rw [rdfLine_data hl hres]
          simp [rdfNode, rdfElement, h1, h2, ht]
        simp only [lineLoop, e]
        obtain ⟨new, e', hlen, hn⟩ := ih hrest
          { s with triangles := s.triangles ++ [t], elements := s.elements + 1 } h1 h2
          (fun i j k f hm => hr i j k f (List.mem_cons_of_mem _ hm))
        refine ⟨t :: new, ?_, ?_, ?_⟩
        · rw [e']; simp; omega
        · simp [hlen]
        · intro n i' j' k' f' hget
          cases n with
          | zero =>
            simp at hget
            obtain ⟨rfl, rfl, rfl, rfl⟩ := hget
            exact ⟨t, _, _, _, rfl, List.getElem?_eq_getElem r1, List.getElem?_eq_getElem r2,
              List.getElem?_eq_getElem r3, htri, hfr⟩
          | succ n =>
            simp only [List.getElem?_cons_succ] at hget ⊢
            exact hn n i' j' k' f' hget

/-! ## Every text -/

theorem wordLine_nil {l : List Char} (h : Words l []) : ∀ c ∈ l, c = ' ' := by
  generalize hk : ([] : List (List Char)) = k at h
  induction h with
  | nil => simp
  | space _ ih => intro c hc; rcases List.mem_cons.mp hc with rfl | hc; exacts [rfl, ih hk c hc]
  | word => cases hk

theorem tail_nil_of_blank {l : List Char} (h : ∀ c ∈ l, c = ' ') : Text.tail l = [] := by
  obtain ⟨pre, w, sep, post, h1, -, -, -, -, h6, -, -⟩ := Text.tail_spec l
  cases ht : Text.tail l with
  | nil => rfl
  | cons c cs =>
    have hc := h6 c (by rw [ht]; rfl)
    have : c ∈ l := by rw [h1, ht]; simp
    rw [h c this] at hc
    exact absurd hc (by decide)

/-- The data branch of the loop, for any line that is neither header nor comment. -/
theorem rdfLine_data' {np : NumParse α} {pose : Affine α} {s : LoadState α} {l : List Char}
    {ws : List (List Char)} (hl : WordLine l ws) (hw : ∀ w ∈ ws.head?, ¬ Reserved w) :
    rdfLine np pose s l = (rdfNode np pose s l >>= fun s => rdfElement np s l) := by
  cases ws with
  | cons w ws => exact rdfLine_data hl (hw w rfl)
  | nil =>
    have hb : Blank l := fun c hc => Or.inl (wordLine_nil hl.2 c hc)
    unfold rdfLine
    simp only [Text.firstToken_blank hb]
    refine (if_neg (by decide)).trans ((if_neg (by decide)).trans ((if_neg (by decide)).trans
      (if_neg (by decide))))

/-- The triangle `t` is element `e` on nodes `ns`. -/
def ElementIs (pose : Affine α) (ns : List (α × α × α)) (e : Nat × Nat × Nat × α)
    (t : TriangleGround α) : Prop :=
  ∃ p q r, ns[e.1]? = some p ∧ ns[e.2.1]? = some q ∧ ns[e.2.2.1]? = some r ∧
    t.tri = ⟨pose.apply ⟨p.1, p.2.1, p.2.2⟩, pose.apply ⟨q.1, q.2.1, q.2.2⟩,
      pose.apply ⟨r.1, r.2.1, r.2.2⟩⟩ ∧ t.friction = e.2.2.2

theorem ElementIs.mono {pose : Affine α} {ns : List (α × α × α)} {e : Nat × Nat × Nat × α}
    {t : TriangleGround α} (h : ElementIs pose ns e t) (ms : List (α × α × α)) :
    ElementIs pose (ns ++ ms) e t := by
  obtain ⟨p, q, r, h1, h2, h3, h4⟩ := h
  have key : ∀ {i : Nat} {p}, ns[i]? = some p → (ns ++ ms)[i]? = some p := by
    intro i p hp
    rw [List.getElem?_append_left (List.getElem?_eq_some_iff.mp hp).1]; exact hp
  exact ⟨p, q, r, key h1, key h2, key h3, h4⟩

/-- The loader's variables agree with what has been read. -/
structure RdfMatches (pose : Affine α) (old : List (TriangleGround α)) (st : RdfState α)
    (s : LoadState α) : Prop where
  nodes : s.nodes = st.nodes.map fun n => pose.apply ⟨n.1, n.2.1, n.2.2⟩
  np : s.nodesParse = true ↔ st.sec = some .nodes
  ep : s.elementsParse = true ↔ st.sec = some .elements
  count : s.elements = st.elements.length
  tris : ∃ new, s.triangles = old ++ new ∧
    List.Forall₂ (ElementIs pose st.nodes) st.elements new

theorem RdfMatches.init (pose : Affine α) (old : List (TriangleGround α)) :
    RdfMatches pose old RdfState.init ⟨[], old, 0, false, false⟩ :=
  ⟨rfl, by simp [RdfState.init], by simp [RdfState.init], rfl, [], by simp, .nil⟩

theorem rdfLine_of_step {np : NumParse α} {pose : Affine α} {old : List (TriangleGround α)}
    {st st' : RdfState α} {s : LoadState α} {l : List Char} (hm : RdfMatches pose old st s)
    (h : RdfStep np.stod np.stoi (fun f => (zero <=. f) = true) st l st') :
    ∃ s', rdfLine np pose s l = .ok s' ∧ RdfMatches pose old st' s' := by
  cases h with
  | comment h =>
    cases h with
    | comment hl hw => exact ⟨s, rdfLine_comment hl hw, hm⟩
  | nodes h =>
    cases h with
    | nodes hl hw =>
      exact ⟨_, rdfLine_nodes hl hw, hm.nodes, by simp, by simp, hm.count, hm.tris⟩
  | elements h =>
    cases h with
    | elements hl hw =>
      exact ⟨_, rdfLine_elements hl hw, hm.nodes, by simp, by simp, hm.count, hm.tris⟩
  | skipped hl hw =>
    have h1 : s.nodesParse = false := by simpa using mt hm.np.1 (by simp)
    have h2 : s.elementsParse = false := by simpa using mt hm.ep.1 (by simp)
    exact ⟨s, by rw [rdfLine_data' hl hw]; simp [rdfNode, rdfElement, h1, h2], hm⟩
  | @node ns es _ x y z h =>
    cases h with
    | node hl hr ha hb hc =>
      have h1 : s.nodesParse = true := hm.np.2 rfl
      have h2 : s.elementsParse = false := by simpa using mt hm.ep.1 (by simp)
      refine ⟨{ s with nodes := s.nodes ++ [pose.apply ⟨x, y, z⟩] }, ?_, ?_, hm.np, hm.ep,
        hm.count, ?_⟩
      · rw [rdfLine_data hl hr]
        simp [rdfNode, rdfElement, h1, h2, parseNode_of hl ha hb hc]
      · simp [hm.nodes]
      · obtain ⟨new, k1, k2⟩ := hm.tris
        exact ⟨new, k1, k2.imp fun _ _ h => h.mono _⟩
  | @element ns es _ i j k f h hi hj hk hf =>
    cases h with
    | element hl hr ha hb hc hd =>
      have h1 : s.nodesParse = false := by simpa using mt hm.np.1 (by simp)
      have h2 : s.elementsParse = true := hm.ep.2 rfl
      have hn := hm.nodes
      have get : ∀ {i : Nat} (hi : i < ns.length), s.nodes[i]? =
          some (pose.apply ⟨ns[i].1, ns[i].2.1, ns[i].2.2⟩) := by
        intro i hi; rw [hn]; simp [hi]
      obtain ⟨t, ht, -, hfr, htri⟩ := parseRdfElement_of (id := s.elements) rfl hl ha hb hc hd hf
        (get hi) (get hj) (get hk)
      obtain ⟨new, k1, k2⟩ := hm.tris
      refine ⟨{ s with triangles := s.triangles ++ [t], elements := s.elements + 1 }, ?_, hm.nodes,
        hm.np, hm.ep, by simp [hm.count], new ++ [t], by simp [k1], ?_⟩
      · rw [rdfLine_data hl hr]
        simp [rdfNode, rdfElement, h1, h2, ht]
      · refine List.rel_append k2 (.cons ?_ .nil)
        exact ⟨_, _, _, List.getElem?_eq_getElem hi, List.getElem?_eq_getElem hj,
          List.getElem?_eq_getElem hk, htri, hfr⟩

theorem parseNode_ok {np : NumParse α} {pose : Affine α} {l : List Char} {p : V3 α}
    (h : parseNode np pose l = .ok p) : ∃ a b c x y z, Text.split (Text.tail l) = [a, b, c] ∧
      np.stod a = some x ∧ np.stod b = some y ∧ np.stod c = some z := by
  unfold parseNode at h
  split at h
  next a b c hs =>
    simp only [Res.bind_eq_ok, stod] at h
    obtain ⟨x, hx, y, hy, z, hz, -⟩ := h
    refine ⟨a, b, c, x, y, z, hs, ?_, ?_, ?_⟩
    · split at hx <;> simp_all
    · split at hy <;> simp_all
    · split at hz <;> simp_all
  next => simp at h

/-- A line that is neither header nor comment, in the NODES section, is accepted only if it is a node
line. -/
theorem node_of_parse {np : NumParse α} {pose : Affine α} {l : List Char} {ws : List (List Char)}
    {p : V3 α} (hl : WordLine l ws) (hw : ∀ w ∈ ws.head?, ¬ Reserved w)
    (h : parseNode np pose l = .ok p) :
    ∃ x y z, RdfMeans np.stod np.stoi l (.node x y z) := by
  obtain ⟨a, b, c, x, y, z, hs, ha, hb, hc⟩ := parseNode_ok h
  cases ws with
  | nil => rw [tail_nil_of_blank (wordLine_nil hl.2)] at hs; cases hs
  | cons w ws =>
    rw [Text.split_of_words (Text.words_first_tail hl.1 hl.2).2] at hs
    subst hs
    exact ⟨x, y, z, .node hl (hw w rfl) ha hb hc⟩

omit [Scalar α] in
theorem rdf_cases (l : List Char) (hc : Clean l) (stod : List Char → Option α)
    (stoi : List Char → Option Int) :
    RdfMeans stod stoi l .comment ∨ RdfMeans stod stoi l .nodesHeader ∨
    RdfMeans stod stoi l .elementsHeader ∨
    ∃ ws, WordLine l ws ∧ ∀ w ∈ ws.head?, ¬ Reserved w := by
  obtain ⟨ws, hws⟩ := Text.words_exists l
  cases ws with
  | nil => exact Or.inr (Or.inr (Or.inr ⟨[], ⟨hc, hws⟩, by simp⟩))
  | cons w ws =>
    by_cases h1 : CommentWord w
    · exact Or.inl (.comment ⟨hc, hws⟩ h1)
    by_cases h2 : NodesWord w
    · exact Or.inr (Or.inl (.nodes ⟨hc, hws⟩ h2))
    by_cases h3 : ElementsWord w
    · exact Or.inr (Or.inr (Or.inl (.elements ⟨hc, hws⟩ h3)))
    · refine Or.inr (Or.inr (Or.inr ⟨w :: ws, ⟨hc, hws⟩, ?_⟩))
      intro w' hw'; simp at hw'; subst hw'
      rintro (h | h | h)
      exacts [h1 h, h2 h, h3 h]

theorem step_of_rdfLine {np : NumParse α} {pose : Affine α} {old : List (TriangleGround α)}
    {st : RdfState α} {s s' : LoadState α} {l : List Char} (hm : RdfMatches pose old st s)
    (hc : Clean l) (h : rdfLine np pose s l = .ok s') :
    ∃ st', RdfStep np.stod np.stoi (fun f => (zero <=. f) = true) st l st' ∧
      RdfMatches pose old st' s' := by
  suffices hs : ∃ st', RdfStep np.stod np.stoi (fun f => (zero <=. f) = true) st l st' by
    obtain ⟨st', hs⟩ := hs
    obtain ⟨s1, e1, m1⟩ := rdfLine_of_step hm hs
    rw [h] at e1
    rw [Res.ok.inj e1]
    exact ⟨st', hs, m1⟩
  rcases rdf_cases l hc np.stod np.stoi with h1 | h1 | h1 | ⟨ws, hl, hw⟩
  · exact ⟨_, .comment h1⟩
  · exact ⟨_, .nodes h1⟩
  · exact ⟨_, .elements h1⟩
  rw [rdfLine_data' hl hw, Res.bind_eq_ok] at h
  obtain ⟨s1, h1, h2⟩ := h
  obtain ⟨sec, ns, es⟩ := st
  match sec with
  | none => exact ⟨_, .skipped hl hw⟩
  | some .nodes =>
    have := hm.np.2 rfl
    simp only [rdfNode, this, if_true, Res.bind_eq_ok] at h1
    obtain ⟨p, hp, -⟩ := h1
    obtain ⟨x, y, z, hx⟩ := node_of_parse hl hw hp
    exact ⟨_, .node hx⟩
  | some .elements =>
    have f1 : s.nodesParse = false := by simpa using mt hm.np.1 (by simp)
    have f2 := hm.ep.2 rfl
    simp [rdfNode, f1] at h1
    subst h1
    simp only [rdfElement, f2, if_true, Res.bind_eq_ok] at h2
    obtain ⟨t, ht, -⟩ := h2
    obtain ⟨a, b, c, d, i, j, k, f, p, q, r, hs, ha, hb, hc', hd, i0, j0, k0, hp, hq, hr, hmk⟩ :=
      parseRdfElement_ok ht
    rw [Text.split_of_words hl.2] at hs
    subst hs
    obtain ⟨i, rfl⟩ := Int.eq_ofNat_of_zero_le i0
    obtain ⟨j, rfl⟩ := Int.eq_ofNat_of_zero_le j0
    obtain ⟨k, rfl⟩ := Int.eq_ofNat_of_zero_le k0
    have len : ∀ {i : Nat} {p}, s.nodes[i]? = some p → i < ns.length := by
      intro i p hp
      have := (List.getElem?_eq_some_iff.mp hp).1
      rw [hm.nodes] at this
      simpa using this
    exact ⟨_, .element (.element hl (hw a rfl) ha hb hc' hd) (len hp) (len hq) (len hr)
      (TriangleGround.make_ok hmk).1⟩

/-- Undefined behaviour on a line comes from an element that refers to a missing node. -/
def RdfDangling (stod : List Char → Option α) (stoi : List Char → Option Int) (st : RdfState α)
    (l : List Char) : Prop :=
  st.sec = some .elements ∧ ∃ (i j k : Nat) (f : α), RdfMeans stod stoi l (.element i j k f) ∧
    (zero <=. f) = true ∧ ¬ (i < st.nodes.length ∧ j < st.nodes.length ∧ k < st.nodes.length)

theorem dangling_of_rdfLine {np : NumParse α} {pose : Affine α} {old : List (TriangleGround α)}
    {st : RdfState α} {s : LoadState α} {l : List Char} {why : String}
    (hm : RdfMatches pose old st s) (hc : Clean l) (h : rdfLine np pose s l = .ub why) :
    RdfDangling np.stod np.stoi st l := by
  rcases rdf_cases l hc np.stod np.stoi with h1 | h1 | h1 | ⟨ws, hl, hw⟩
  · cases h1 with | comment hl hw => rw [rdfLine_comment hl hw] at h; cases h
  · cases h1 with | nodes hl hw => rw [rdfLine_nodes hl hw] at h; cases h
  · cases h1 with | elements hl hw => rw [rdfLine_elements hl hw] at h; cases h
  rw [rdfLine_data' hl hw] at h
  obtain ⟨sec, ns, es⟩ := st
  have hnode : ∀ w, rdfNode np pose s l ≠ .ub w := by
    intro w hu
    unfold rdfNode at hu
    split at hu
    · unfold parseNode at hu
      split at hu
      · simp only [stod] at hu
        split at hu
        · simp at hu
          split at hu
          · simp at hu
            split at hu <;> simp at hu
          · simp at hu
        · simp at hu
      · simp at hu
    · simp at hu
  by_cases he : s.elementsParse = true
  · have hsec := hm.ep.1 he
    subst hsec
    have f1 : s.nodesParse = false := by simpa using mt hm.np.1 (by simp)
    simp only [rdfNode, f1, Bool.false_eq_true, if_false, Res.pure_eq, Res.bind_ok, rdfElement, he,
      if_true] at h
    refine ⟨rfl, ?_⟩
    unfold parseRdfElement at h
    rw [Text.split_of_words hl.2] at h
    split at h
    next a b c d =>
      simp only [stoi, stod] at h
      cases ha : np.stoi a with
      | none => simp [ha] at h
      | some i =>
      cases hb : np.stoi b with
      | none => simp [ha, hb] at h
      | some j =>
      cases hc' : np.stoi c with
      | none => simp [ha, hb, hc'] at h
      | some k =>
      cases hd : np.stod d with
      | none => simp [ha, hb, hc', hd] at h
      | some f =>
      simp only [ha, hb, hc', hd, Res.bind_ok] at h
      by_cases i0 : 0 ≤ i
      swap
      · simp [i0] at h
      by_cases j0 : 0 ≤ j
      swap
      · simp [i0, j0] at h
      by_cases k0 : 0 ≤ k
      swap
      · simp [i0, j0, k0] at h
      cases hf : (zero <=. f) with
      | false => simp [i0, j0, k0, hf] at h
      | true =>
      obtain ⟨i, rfl⟩ := Int.eq_ofNat_of_zero_le i0
      obtain ⟨j, rfl⟩ := Int.eq_ofNat_of_zero_le j0
      obtain ⟨k, rfl⟩ := Int.eq_ofNat_of_zero_le k0
      refine ⟨i, j, k, f, .element hl (hw a rfl) ha hb hc' hd, hf, ?_⟩
      rintro ⟨hi, hj, hk⟩
      have get : ∀ {i : Nat} (hi : i < ns.length), nodeAt s.nodes (i : Int) =
          .ok (pose.apply ⟨ns[i].1, ns[i].2.1, ns[i].2.2⟩) := by
        intro i hi; unfold nodeAt; rw [hm.nodes]; simp [hi]
      simp only [i0, j0, k0, hf, decide_true, Res.assert_true, Res.bind_ok, get hi, get hj, get hk,
        TriangleGround.make] at h
      simp at h
    next => simp at h
  · simp only [Bool.not_eq_true] at he
    cases hn : rdfNode np pose s l with
    | ub w => exact absurd hn (hnode w)
    | throw e => simp [hn] at h
    | ok s1 =>
      have : s1.elementsParse = false := by
        unfold rdfNode at hn
        split at hn
        · rw [Res.bind_eq_ok] at hn
          obtain ⟨p, -, hn⟩ := hn
          cases hn; exact he
        · cases hn; exact he
      simp [hn, rdfElement, this] at h

/-- The loop accepts exactly the texts that can be read. -/
theorem loop_of_reads {np : NumParse α} {pose : Affine α} {old : List (TriangleGround α)}
    {st st' : RdfState α} {s : LoadState α} {ls : List (List Char)} (hm : RdfMatches pose old st s)
    (h : RdfReads np.stod np.stoi (fun f => (zero <=. f) = true) st ls st') :
    ∃ s', lineLoop (rdfLine np pose) ls s = .ok s' () ∧ RdfMatches pose old st' s' := by
  induction h generalizing s with
  | nil => exact ⟨s, rfl, hm⟩
  | cons hs _ ih =>
    obtain ⟨s1, e1, m1⟩ := rdfLine_of_step hm hs
    obtain ⟨s2, e2, m2⟩ := ih m1
    exact ⟨s2, by simp only [lineLoop, e1]; exact e2, m2⟩

theorem reads_of_loop {np : NumParse α} {pose : Affine α} {old : List (TriangleGround α)}
    {st : RdfState α} {s s' : LoadState α} {ls : List (List Char)} {u : Unit}
    (hm : RdfMatches pose old st s) (hc : ∀ l ∈ ls, Clean l)
    (h : lineLoop (rdfLine np pose) ls s = .ok s' u) :
    ∃ st', RdfReads np.stod np.stoi (fun f => (zero <=. f) = true) st ls st' ∧
      RdfMatches pose old st' s' := by
  induction ls generalizing s st with
  | nil => cases h; exact ⟨st, .nil, hm⟩
  | cons l ls ih =>
    simp only [lineLoop] at h
    split at h
    next s1 e1 =>
      obtain ⟨st1, hs, m1⟩ := step_of_rdfLine hm (hc l (by simp)) e1
      obtain ⟨st2, hr, m2⟩ := ih m1 (fun l hl => hc l (by simp [hl])) h
      exact ⟨st2, .cons hs hr, m2⟩
    · cases h
    · cases h

theorem dangling_of_loop {np : NumParse α} {pose : Affine α} {old : List (TriangleGround α)}
    {st : RdfState α} {s : LoadState α} {ls : List (List Char)} {why : String}
    (hm : RdfMatches pose old st s) (hc : ∀ l ∈ ls, Clean l)
    (h : lineLoop (rdfLine np pose) ls s = .ub why) :
    ∃ pre l post st', ls = pre ++ l :: post ∧
      RdfReads np.stod np.stoi (fun f => (zero <=. f) = true) st pre st' ∧
      RdfDangling np.stod np.stoi st' l := by
  induction ls generalizing s st with
  | nil => cases h
  | cons l ls ih =>
    simp only [lineLoop] at h
    split at h
    next s1 e1 =>
      obtain ⟨st1, hs, m1⟩ := step_of_rdfLine hm (hc l (by simp)) e1
      obtain ⟨pre, l', post, st', e, hr, hd⟩ := ih m1 (fun l hl => hc l (by simp [hl])) h
      exact ⟨l :: pre, l', post, st', by rw [e]; rfl, .cons hs hr, hd⟩
    · cases h
    next w e1 =>
      exact ⟨[], l, ls, st, rfl, .nil, dangling_of_rdfLine hm (hc l (by simp)) e1⟩

end Mesh
end Enve
