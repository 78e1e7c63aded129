import Verif.Lemmas.ObjRead

/-! # C19–C24, C58: loading meshes from text -/

namespace Enve
open Scalar Spec
variable {α : Type} [Scalar α]

/-- **C58.** `split` yields exactly the words of the line; `firstToken` the first whitespace-free
run; `tail` what follows the first word, without the blanks around it. -/
theorem C58_tokenizer (l : List Char) :
    (∀ ws, Words l ws ↔ Text.split l = ws) ∧
    (∃ pre rest, l = pre ++ Text.firstToken l ++ rest ∧ Blank pre ∧
      (∀ c ∈ Text.firstToken l, ¬ Blank [c]) ∧ (∀ c ∈ rest.head?, Blank [c]) ∧
      (Text.firstToken l = [] → rest = [])) ∧
    (∃ pre w sep post, l = pre ++ w ++ sep ++ Text.tail l ++ post ∧
      (∀ c ∈ pre ++ sep ++ post, c = ' ' ∨ c = '\t') ∧ (∀ c ∈ w, c ≠ ' ' ∧ c ≠ '\t') ∧
      (∀ c ∈ (Text.tail l).head?, c ≠ ' ' ∧ c ≠ '\t') ∧
      (∀ c ∈ (Text.tail l).getLast?, c ≠ ' ' ∧ c ≠ '\t') ∧
      (Text.tail l ≠ [] → w ≠ [] ∧ sep ≠ [])) := by
  have sp : ∀ c, Text.isSpace c = true ↔ (c = ' ' ∨ c = '\t' ∨ c = '\r' ∨ c = '\n') := by
    intro c; simp [Text.isSpace, or_assoc]
  have bl : ∀ c, Text.isBlank c = true ↔ (c = ' ' ∨ c = '\t') := by
    intro c; simp [Text.isBlank]
  have nb : ∀ c, Text.isBlank c = false ↔ (c ≠ ' ' ∧ c ≠ '\t') := by
    intro c; simp [Text.isBlank]
  refine ⟨fun ws => Text.words_iff l ws, ?_, ?_⟩
  · obtain ⟨pre, rest, h1, h2, h3, h4, h5⟩ := Text.firstToken_spec l
    refine ⟨pre, rest, h1, fun c hc => (sp c).1 (h2 c hc), fun c hc hb => ?_,
      fun c hc d hd => ?_, h5⟩
    · have := h3 c hc
      rw [(sp c).2 (hb c (by simp))] at this
      exact absurd this (by simp)
    · simp at hd; subst hd; exact (sp _).1 (h4 _ hc)
  · obtain ⟨pre, w, sep, post, h1, h2, h3, h4, h5, h6, h7, h8⟩ := Text.tail_spec l
    refine ⟨pre, w, sep, post, h1, ?_, fun c hc => (nb c).1 (h3 c hc),
      fun c hc => (nb c).1 (h6 c hc), fun c hc => (nb c).1 (h7 c hc), h8⟩
    intro c hc
    simp only [List.mem_append] at hc
    rcases hc with (hc | hc) | hc
    · exact (bl c).1 (h2 c hc)
    · exact (bl c).1 (h4 c hc)
    · exact (bl c).1 (h5 c hc)

/-- A line on which all three functions do something. -/
example : Text.split " ab  c ".toList = ["ab".toList, "c".toList] ∧
    Text.firstToken " ab  c ".toList = "ab".toList ∧ Text.tail " ab  c ".toList = "c".toList := by
  decide

/-- **C19.** Loading a well formed RDF text into an empty mesh succeeds and gives one triangle per
element, in order, with consecutive ids, the listed friction, and as vertices the listed nodes moved
by the pose. -/
theorem C19_rdf_load (np : NumParse α) (stem : List Char) (lines : List (List Char))
    (pose : Affine α) (nodes : List (α × α × α)) (elements : List (Nat × Nat × Nat × α))
    (h : RdfText np.stod np.stoi (fun f => (zero <=. f) = true) lines nodes elements) :
    ∃ m, Mesh.loadRdf np Mesh.empty (stem ++ ".rdf".toList) (some lines) pose = .ok m true ∧
      Mesh.ofRdf np (stem ++ ".rdf".toList) (some lines) pose = .ok m ∧
      m.triangles.length = elements.length ∧
      ∀ (n i j k : Nat) (f : α), elements[n]? = some (i, j, k, f) →
        ∃ t p q r, m.triangles[n]? = some t ∧ nodes[i]? = some p ∧ nodes[j]? = some q ∧
          nodes[k]? = some r ∧ t.id = n ∧ t.friction = f ∧
          t.tri.v0 = pose.apply ⟨p.1, p.2.1, p.2.2⟩ ∧ t.tri.v1 = pose.apply ⟨q.1, q.2.1, q.2.2⟩ ∧
          t.tri.v2 = pose.apply ⟨r.1, r.2.1, r.2.2⟩ := by
  obtain ⟨⟨pre, body, els, hk, hpre, hbody, hels, hn, he⟩, hrange, hne⟩ := h
  -- split the lines at the two headers
  obtain ⟨l1, l2, e1, f1, f2⟩ : ∃ l1 l2, lines = l1 ++ l2 ∧
      List.Forall₂ (RdfMeans np.stod np.stoi) l1 pre ∧
      List.Forall₂ (RdfMeans np.stod np.stoi) l2
        (.nodesHeader :: (body ++ .elementsHeader :: els)) :=
    ⟨_, _, (List.take_append_drop pre.length lines).symm,
      List.forall₂_take_append _ _ _ hk, List.forall₂_drop_append _ _ _ hk⟩
  cases f2 with | @cons h1 _ l3 _ m1 f3 =>
  obtain ⟨l4, l5, e2, f4, f5⟩ : ∃ l4 l5, l3 = l4 ++ l5 ∧
      List.Forall₂ (RdfMeans np.stod np.stoi) l4 body ∧
      List.Forall₂ (RdfMeans np.stod np.stoi) l5 (.elementsHeader :: els) :=
    ⟨_, _, (List.take_append_drop body.length l3).symm,
      List.forall₂_take_append _ _ _ f3, List.forall₂_drop_append _ _ _ f3⟩
  cases f5 with | @cons h2 _ l6 _ m2 f6 =>
  have s1 : ∀ s, Mesh.rdfLine np pose s h1 =
      .ok { s with nodesParse := true, elementsParse := false } := by
    intro s; cases m1 with | nodes hl hw => exact Mesh.rdfLine_nodes hl hw
  have s2 : ∀ s, Mesh.rdfLine np pose s h2 =
      .ok { s with nodesParse := false, elementsParse := true } := by
    intro s; cases m2 with | elements hl hw => exact Mesh.rdfLine_elements hl hw
  let nds := nodes.map fun n : α × α × α => pose.apply ⟨n.1, n.2.1, n.2.2⟩
  have hlen : nds.length = nodes.length := by simp [nds]
  obtain ⟨new, k1, k2, k3⟩ := Mesh.lineLoop_elements (pose := pose) f6 hels
    ⟨nds, [], 0, false, true⟩ rfl rfl (by
      intro i j k f hm; rw [← he] at hm
      simpa [hlen] using hrange i j k f hm)
  rw [← he] at k1 k2 k3
  have loop : Mesh.lineLoop (Mesh.rdfLine np pose) lines ⟨[], [], 0, false, false⟩ =
      .ok ⟨nds, new, elements.length, false, true⟩ () := by
    rw [e1, Mesh.lineLoop_append, Mesh.lineLoop_comments f1 hpre]
    simp only [Mesh.lineLoop, s1]
    rw [e2, Mesh.lineLoop_append, Mesh.lineLoop_nodes f4 hbody _ rfl rfl]
    simp only [Mesh.lineLoop, s2, List.nil_append, ← hn]
    simpa using k1
  let m : Mesh α := Mesh.ofTriangles new
  have hload : Mesh.loadRdf np Mesh.empty (stem ++ ".rdf".toList) (some lines) pose = .ok m true := by
    unfold Mesh.loadRdf
    rw [Mesh.loadWith_eq rfl rfl]
    have : (Mesh.empty : Mesh α).triangles = [] := rfl
    rw [this, loop]
    have hnew : new ≠ [] := by
      intro hc; rw [hc] at k2; simp at k2; exact hne (List.length_eq_zero_iff.mp k2.symm)
    simp only [Mesh.loadFinish, k2, ne_eq, not_true_eq_false, if_false]
    rw [if_neg (by simpa using hnew)]
    rfl
  refine ⟨m, hload, ?_, k2, ?_⟩
  · simp only [Mesh.ofRdf, hload, Mesh.constructed]
  · intro n i j k f hget
    obtain ⟨t, p, q, r, t1, t2, t3, t4, t5, t6⟩ := k3 n i j k f hget
    have hids := (Mesh.loadRdf_consistent rfl hload).1.ids n t t1
    simp only [nds, List.getElem?_map, Option.map_eq_some_iff] at t2 t3 t4
    obtain ⟨p', hp, rfl⟩ := t2
    obtain ⟨q', hq, rfl⟩ := t3
    obtain ⟨r', hr, rfl⟩ := t4
    exact ⟨t, p', q', r', t1, hp, hq, hr, hids, t6, by rw [t5], by rw [t5], by rw [t5]⟩

/-- **C19**, all texts without tabs and stray line ends: loading into a mesh without triangles
succeeds exactly when the text can be read and lists an element, and the triangles are the listed
elements. -/
theorem C19_rdf_load_exact (np : NumParse α) (m : Mesh α) (hm : m.triangles = [])
    (stem : List Char) (lines : List (List Char)) (pose : Affine α)
    (hc : ∀ l ∈ lines, Clean l) :
    ((∃ m' b, Mesh.loadRdf np m (stem ++ ".rdf".toList) (some lines) pose = .ok m' b) ↔
      ∃ st, RdfReads np.stod np.stoi (fun f => (zero <=. f) = true) .init lines st ∧
        st.elements ≠ []) ∧
    ∀ m' b, Mesh.loadRdf np m (stem ++ ".rdf".toList) (some lines) pose = .ok m' b →
      b = true ∧ (∀ (n : Nat) t, m'.triangles[n]? = some t → t.id = n) ∧
      ∃ st, RdfReads np.stod np.stoi (fun f => (zero <=. f) = true) .init lines st ∧
        List.Forall₂ (fun e t => ∃ p q r, st.nodes[e.1]? = some p ∧ st.nodes[e.2.1]? = some q ∧
          st.nodes[e.2.2.1]? = some r ∧ t.friction = e.2.2.2 ∧
          t.tri.v0 = pose.apply ⟨p.1, p.2.1, p.2.2⟩ ∧ t.tri.v1 = pose.apply ⟨q.1, q.2.1, q.2.2⟩ ∧
          t.tri.v2 = pose.apply ⟨r.1, r.2.1, r.2.2⟩) st.elements m'.triangles := by
  have back : ∀ m' b, Mesh.loadRdf np m (stem ++ ".rdf".toList) (some lines) pose = .ok m' b →
      b = true ∧ ∃ st, RdfReads np.stod np.stoi (fun f => (zero <=. f) = true) .init lines st ∧
        st.elements ≠ [] ∧ List.Forall₂ (Mesh.ElementIs pose st.nodes) st.elements m'.triangles := by
    intro m' b h
    obtain ⟨ls, s, u, e, hl, h1, h2, rfl, hb⟩ := Mesh.loadWith_ok h
    cases e
    obtain ⟨st, hr, hmt⟩ := Mesh.reads_of_loop (Mesh.RdfMatches.init pose m.triangles) hc hl
    obtain ⟨new, k1, k2⟩ := hmt.tris
    rw [hm, List.nil_append] at k1
    refine ⟨hb, st, hr, ?_, by rw [← k1] at k2; exact k2⟩
    intro he
    rw [he] at k2
    cases k2
    exact h2 k1
  refine ⟨⟨?_, ?_⟩, ?_⟩
  · rintro ⟨m', b, h⟩
    obtain ⟨-, st, hr, hne, -⟩ := back m' b h
    exact ⟨st, hr, hne⟩
  · rintro ⟨st, hr, hne⟩
    obtain ⟨s, hl, hmt⟩ := Mesh.loop_of_reads (Mesh.RdfMatches.init pose m.triangles) hr
    obtain ⟨new, k1, k2⟩ := hmt.tris
    rw [hm, List.nil_append] at k1
    refine ⟨({ m with triangles := s.triangles } : Mesh α).buildAABBtree, true, ?_⟩
    unfold Mesh.loadRdf
    rw [Mesh.loadWith_eq rfl rfl, hl]
    simp only [Mesh.loadFinish]
    rw [if_neg (by rw [hmt.count, k1, k2.length_eq]; simp), if_neg]
    rw [k1]
    intro h
    have : new = [] := by simpa using h
    rw [this] at k2
    cases k2' : st.elements with
    | nil => exact hne k2'
    | cons a as => rw [k2'] at k2; cases k2
  · intro m' b h
    obtain ⟨hb, st, hr, -, hf⟩ := back m' b h
    refine ⟨hb, (Mesh.loadRdf_consistent hm h).1.ids, st, hr, hf.imp ?_⟩
    rintro e t ⟨p, q, r, h1, h2, h3, h4, h5⟩
    exact ⟨p, q, r, h1, h2, h3, h5, by rw [h4], by rw [h4], by rw [h4]⟩

/-- **C20.** The same for OBJ texts, with one friction for all faces and indices counted from one. -/
theorem C20_obj_load (np : NumParse α) (m : Mesh α) (hm : m.triangles = [])
    (stem : List Char) (lines : List (List Char)) (friction : α) (pose : Affine α)
    (vertices : List (α × α × α)) (faces : List (Nat × Nat × Nat))
    (hf : (zero <=. friction) = true) (hne : faces ≠ [])
    (h : ObjReads np.stod np.stoi .init lines ⟨vertices, faces⟩) :
    ∃ m', Mesh.loadObj np m (stem ++ ".obj".toList) (some lines) friction pose = .ok m' true ∧
      m'.triangles.length = faces.length ∧
      ∀ (n i j k : Nat), faces[n]? = some (i, j, k) →
        ∃ t p q r, m'.triangles[n]? = some t ∧ vertices[i - 1]? = some p ∧
          vertices[j - 1]? = some q ∧ vertices[k - 1]? = some r ∧ t.id = n ∧ t.friction = friction ∧
          t.tri.v0 = pose.apply ⟨p.1, p.2.1, p.2.2⟩ ∧ t.tri.v1 = pose.apply ⟨q.1, q.2.1, q.2.2⟩ ∧
          t.tri.v2 = pose.apply ⟨r.1, r.2.1, r.2.2⟩ := by
  obtain ⟨s, hl, hmt⟩ := Mesh.loop_of_objReads hf (Mesh.ObjMatches.init friction pose m.triangles) h
  obtain ⟨new, k1, k2⟩ := hmt.tris
  rw [hm, List.nil_append] at k1
  let m' : Mesh α := { m with triangles := s.triangles }.buildAABBtree
  have hload : Mesh.loadObj np m (stem ++ ".obj".toList) (some lines) friction pose =
      .ok m' true := by
    unfold Mesh.loadObj
    rw [Mesh.loadWith_eq rfl rfl, hl]
    simp only [Mesh.loadFinish]
    rw [if_neg (by rw [hmt.count, k1, k2.length_eq]; simp), if_neg]
    rw [k1]
    intro h
    have : new = [] := by simpa using h
    rw [this] at k2
    cases k2' : faces with
    | nil => exact hne k2'
    | cons a as => simp only [k2'] at k2; cases k2
  have ht : m'.triangles = new := k1
  refine ⟨m', hload, by rw [ht]; exact k2.length_eq.symm, ?_⟩
  intro n i j k hget
  have hn : n < faces.length := (List.getElem?_eq_some_iff.mp hget).1
  have hn' : n < new.length := by rw [← k2.length_eq]; exact hn
  have := List.forall₂_iff_get.mp k2 |>.2 n hn hn'
  obtain ⟨p, q, r, t1, t2, t3, t4, t5⟩ := this
  have hfa : faces[n] = (i, j, k) := (List.getElem?_eq_some_iff.mp hget).2
  simp only [List.get_eq_getElem, hfa] at t1 t2 t3 t4 t5
  have hid := (Mesh.loadObj_consistent hm hload).1.ids n new[n]
    (by rw [ht]; exact List.getElem?_eq_getElem hn')
  exact ⟨new[n], p, q, r, by rw [ht]; exact List.getElem?_eq_getElem hn', t1, t2, t3, hid, t5,
    by rw [t4], by rw [t4], by rw [t4]⟩

/-- **C20**, converse: a text without tabs and stray line ends that loads can be read. -/
theorem C20_obj_load_only (np : NumParse α) (m : Mesh α)
    (path : List Char) (lines : List (List Char)) (friction : α) (pose : Affine α)
    (hc : ∀ l ∈ lines, Clean l) (hf : (zero <=. friction) = true) (m' : Mesh α) (b : Bool)
    (h : Mesh.loadObj np m path (some lines) friction pose = .ok m' b) :
    ∃ st, ObjReads np.stod np.stoi .init lines st ∧ m'.triangles.length = st.faces.length ∧
      st.faces ≠ [] := by
  obtain ⟨ls, s, u, e, hl, h1, h2, rfl, hb⟩ := Mesh.loadWith_ok h
  cases e
  obtain ⟨st, hr, hmt⟩ := Mesh.objReads_of_loop hf (Mesh.ObjMatches.init friction pose m.triangles)
    hc hl
  refine ⟨st, hr, by rw [← hmt.count]; exact h1, ?_⟩
  intro he
  have := hmt.count
  rw [he] at this
  rw [this] at h1
  exact h2 (List.length_eq_zero_iff.mp (by simpa using h1))

/-! ## Malformed texts -/

/-- Words of an RDF node record: an identifier and three numbers. -/
def NodeRecord (np : NumParse α) (ws : List (List Char)) : Prop :=
  ∃ id a b c x y z, ws = [id, a, b, c] ∧ np.stod a = some x ∧ np.stod b = some y ∧
    np.stod c = some z

/-- Words of an RDF element record: three non-negative indices and a non-negative friction. -/
def ElementRecord (np : NumParse α) (ws : List (List Char)) : Prop :=
  ∃ a b c d i j k f, ws = [a, b, c, d] ∧ np.stoi a = some i ∧ np.stoi b = some j ∧
    np.stoi c = some k ∧ np.stod d = some f ∧ 0 ≤ i ∧ 0 ≤ j ∧ 0 ≤ k ∧ (zero <=. f) = true

/-- The last header among the lines is one satisfying `H`. -/
def LastHeader (H : List Char → Prop) (lines : List (List Char)) : Prop :=
  ∃ a h b w ws, lines = a ++ h :: b ∧ WordLine h (w :: ws) ∧ H w ∧
    ∀ l ∈ b, ∀ w ws, WordLine l (w :: ws) → ¬ NodesWord w ∧ ¬ ElementsWord w

/-- A line that is neither header nor comment. -/
def DataLine (l : List Char) (ws : List (List Char)) : Prop :=
  WordLine l ws ∧ ∀ w ∈ ws.head?, ¬ Reserved w

theorem words_unique {l : List Char} {ws ws' : List (List Char)} (h : Words l ws)
    (h' : Words l ws') : ws = ws' := by
  rw [← Text.split_of_words h, ← Text.split_of_words h']

theorem reads_sec_of_no_header {np : NumParse α} {st st' : RdfState α} {ls : List (List Char)}
    (h : RdfReads np.stod np.stoi (fun f => (zero <=. f) = true) st ls st')
    (hn : ∀ l ∈ ls, ∀ w ws, WordLine l (w :: ws) → ¬ NodesWord w ∧ ¬ ElementsWord w) :
    st'.sec = st.sec := by
  induction h with
  | nil => rfl
  | @cons st l st1 ls st2 hs _ ih =>
    rw [ih fun l hl => hn l (by simp [hl])]
    cases hs with
    | comment => rfl
    | nodes h => cases h with | nodes hl hw => exact absurd hw (hn l (by simp) _ _ hl).1
    | elements h => cases h with | elements hl hw => exact absurd hw (hn l (by simp) _ _ hl).2
    | skipped => rfl
    | node => rfl
    | element => rfl

theorem reads_append {np : NumParse α} {st st' : RdfState α} {a b : List (List Char)}
    (h : RdfReads np.stod np.stoi (fun f => (zero <=. f) = true) st (a ++ b) st') :
    ∃ st1, RdfReads np.stod np.stoi (fun f => (zero <=. f) = true) st a st1 ∧
      RdfReads np.stod np.stoi (fun f => (zero <=. f) = true) st1 b st' := by
  induction a generalizing st with
  | nil => exact ⟨st, .nil, h⟩
  | cons l a ih =>
    cases h with
    | cons hs hr =>
      obtain ⟨st1, h1, h2⟩ := ih hr
      exact ⟨st1, .cons hs h1, h2⟩

theorem reads_section {np : NumParse α} {st st' : RdfState α} {ls : List (List Char)}
    (h : RdfReads np.stod np.stoi (fun f => (zero <=. f) = true) st ls st') :
    (LastHeader NodesWord ls → st'.sec = some .nodes) ∧
    (LastHeader ElementsWord ls → st'.sec = some .elements) := by
  have disj : ∀ w, NodesWord w → ElementsWord w → False := by
    rintro w (rfl | rfl) (h | h) <;> revert h <;> decide
  have nc : ∀ w, CommentWord w → ¬ NodesWord w ∧ ¬ ElementsWord w := by
    intro w hw
    refine ⟨?_, ?_⟩
    · rintro (rfl | rfl) <;> revert hw <;> simp [CommentWord]
    · rintro (rfl | rfl) <;> revert hw <;> simp [CommentWord]
  have key : ∀ (H : List Char → Prop) (sec : Section),
      (∀ w, H w → Reserved w ∧ ¬ CommentWord w) →
      (∀ l (st st1 : RdfState α) w ws,
        RdfStep np.stod np.stoi (fun f => (zero <=. f) = true) st l st1 → WordLine l (w :: ws) →
        H w → st1.sec = some sec) → LastHeader H ls → st'.sec = some sec := by
    rintro H sec - hstep ⟨a, hd, b, w, ws, rfl, hl, hw, hno⟩
    obtain ⟨st1, -, h2⟩ := reads_append h
    cases h2 with
    | cons hs hr =>
      rw [reads_sec_of_no_header hr hno]
      exact hstep _ _ _ _ _ hs hl hw
  refine ⟨key _ _ (fun w hw => ⟨Or.inr (Or.inl hw), fun hc => (nc w hc).1 hw⟩) ?_,
    key _ _ (fun w hw => ⟨Or.inr (Or.inr hw), fun hc => (nc w hc).2 hw⟩) ?_⟩
  all_goals
    intro l st st1 w ws hs hl hw
    cases hs with
    | comment h =>
      cases h with
      | comment hl' hw' =>
        obtain ⟨rfl, rfl⟩ := List.cons.inj (words_unique hl.2 hl'.2)
        first | exact absurd hw (nc _ hw').1 | exact absurd hw (nc _ hw').2
    | nodes h =>
      cases h with
      | nodes hl' hw' =>
        obtain ⟨rfl, rfl⟩ := List.cons.inj (words_unique hl.2 hl'.2)
        first | rfl | exact (disj _ hw' hw).elim
    | elements h =>
      cases h with
      | elements hl' hw' =>
        obtain ⟨rfl, rfl⟩ := List.cons.inj (words_unique hl.2 hl'.2)
        first | rfl | exact (disj _ hw hw').elim
    | skipped hl' hw' =>
      have := words_unique hl.2 hl'.2
      subst this
      first
      | exact absurd (Or.inr (Or.inl hw)) (hw' w rfl)
      | exact absurd (Or.inr (Or.inr hw)) (hw' w rfl)
    | node h =>
      first
      | rfl
      | cases h with
        | node hl' hw' =>
          obtain ⟨rfl, rfl⟩ := List.cons.inj (words_unique hl.2 hl'.2)
          exact absurd (Or.inr (Or.inr hw)) hw'
    | element h =>
      first
      | rfl
      | cases h with
        | element hl' hw' =>
          obtain ⟨rfl, rfl⟩ := List.cons.inj (words_unique hl.2 hl'.2)
          exact absurd (Or.inr (Or.inl hw)) hw'

/-- **C21**, RDF. A text with a malformed record in the NODES or in the ELEMENTS section never loads;
and if what precedes it is read without invalid memory access, the load raises an error. -/
theorem C21_rdf_malformed_rejected (np : NumParse α) (m : Mesh α) (stem : List Char)
    (pre : List (List Char)) (l : List Char) (post : List (List Char)) (pose : Affine α)
    (ws : List (List Char)) (hc : ∀ l ∈ pre, Clean l) (hl : DataLine l ws)
    (hbad : (LastHeader NodesWord pre ∧ ¬ NodeRecord np ws) ∨
      (LastHeader ElementsWord pre ∧ ¬ ElementRecord np ws)) :
    (∀ m' b, Mesh.loadRdf np m (stem ++ ".rdf".toList) (some (pre ++ l :: post)) pose ≠
      .ok m' b) ∧
    ((∀ why, Mesh.loadRdf np m (stem ++ ".rdf".toList) (some pre) pose ≠ .ub why) →
      ∃ m' e, Mesh.loadRdf np m (stem ++ ".rdf".toList) (some (pre ++ l :: post)) pose =
        .throw m' e) := by
  unfold Mesh.loadRdf
  rw [Mesh.loadWith_eq rfl rfl, Mesh.loadWith_eq rfl rfl, Mesh.lineLoop_append]
  cases hp : Mesh.lineLoop (Mesh.rdfLine np pose) pre ⟨[], m.triangles, 0, false, false⟩ with
  | throw s e => exact ⟨fun _ _ h => by simp at h, fun _ => ⟨_, _, rfl⟩⟩
  | ub w => exact ⟨fun _ _ h => by simp at h, fun h => absurd rfl (h w)⟩
  | ok s u =>
    have main : ∃ e, Mesh.rdfLine np pose s l = .throw e := by
      obtain ⟨st, hr, hm⟩ := Mesh.reads_of_loop (Mesh.RdfMatches.init pose m.triangles) hc hp
      obtain ⟨s1, s2⟩ := reads_section hr
      cases h : Mesh.rdfLine np pose s l with
      | throw e => exact ⟨e, rfl⟩
      | ub w =>
        obtain ⟨hsec, i, j, k, f, hel, hf, -⟩ := Mesh.dangling_of_rdfLine hm hl.1.1 h
        rcases hbad with ⟨hn, -⟩ | ⟨-, hb⟩
        · rw [s1 hn] at hsec; cases hsec
        · cases hel with
          | element hl' hr ha hb' hc' hd =>
            have := words_unique hl.1.2 hl'.2
            subst this
            exact absurd ⟨_, _, _, _, _, _, _, f, rfl, ha, hb', hc', hd, by omega, by omega,
              by omega, hf⟩ hb
      | ok s' =>
        obtain ⟨st', hs, -⟩ := Mesh.step_of_rdfLine hm hl.1.1 h
        exfalso
        cases hs with
        | comment h =>
          cases h with
          | comment hl' hw' =>
            have := words_unique hl.1.2 hl'.2
            subst this
            exact hl.2 _ rfl (Or.inl hw')
        | nodes h =>
          cases h with
          | nodes hl' hw' =>
            have := words_unique hl.1.2 hl'.2
            subst this
            exact hl.2 _ rfl (Or.inr (Or.inl hw'))
        | elements h =>
          cases h with
          | elements hl' hw' =>
            have := words_unique hl.1.2 hl'.2
            subst this
            exact hl.2 _ rfl (Or.inr (Or.inr hw'))
        | skipped =>
          rcases hbad with ⟨hn, -⟩ | ⟨hn, -⟩
          · cases s1 hn
          · cases s2 hn
        | node h =>
          rcases hbad with ⟨-, hb⟩ | ⟨hn, -⟩
          · cases h with
            | node hl' hr ha hb' hc' =>
              have := words_unique hl.1.2 hl'.2
              subst this
              exact hb ⟨_, _, _, _, _, _, _, rfl, ha, hb', hc'⟩
          · cases s2 hn
        | element h hi hj hk hf =>
          rcases hbad with ⟨hn, -⟩ | ⟨-, hb⟩
          · cases s1 hn
          · cases h with
            | element hl' hr ha hb' hc' hd =>
              have := words_unique hl.1.2 hl'.2
              subst this
              exact hb ⟨_, _, _, _, _, _, _, _, rfl, ha, hb', hc', hd, by omega, by omega,
                by omega, hf⟩
    obtain ⟨e, he⟩ := main
    simp only [Mesh.lineLoop, he]
    exact ⟨fun _ _ h => by simp at h, fun _ => ⟨_, _, rfl⟩⟩

/-- Words of an OBJ vertex record. -/
def VertexRecord (np : NumParse α) (ws : List (List Char)) : Prop :=
  ∃ a b c x y z, ws = ["v".toList, a, b, c] ∧ np.stod a = some x ∧ np.stod b = some y ∧
    np.stod c = some z

/-- Words of an OBJ face record: three positive indices. -/
def FaceRecord (np : NumParse α) (ws : List (List Char)) : Prop :=
  ∃ a b c i j k, ws = ["f".toList, a, b, c] ∧ np.stoi a = some i ∧ np.stoi b = some j ∧
    np.stoi c = some k ∧ 1 ≤ i ∧ 1 ≤ j ∧ 1 ≤ k

/-- **C21**, OBJ. A text with a malformed vertex or face line never loads; if what precedes it is
read without invalid memory access, the load raises an error, unless the line contains the
smallest `int` as an index (see `C21_obj_smallest_int_refuted`). -/
theorem C21_obj_malformed_rejected_partial (np : NumParse α) (m : Mesh α) (stem : List Char)
    (pre : List (List Char)) (l : List Char) (post : List (List Char)) (friction : α)
    (pose : Affine α) (w : List Char) (ws : List (List Char)) (hl : WordLine l (w :: ws))
    (hbad : (w = "v".toList ∧ ¬ VertexRecord np (w :: ws)) ∨
      (w = "f".toList ∧ ¬ (FaceRecord np (w :: ws) ∧ (zero <=. friction) = true))) :
    (∀ m' b, Mesh.loadObj np m (stem ++ ".obj".toList) (some (pre ++ l :: post)) friction pose ≠
      .ok m' b) ∧
    ((∀ why, Mesh.loadObj np m (stem ++ ".obj".toList) (some pre) friction pose ≠ .ub why) →
      (∀ u ∈ ws, np.stoi u ≠ some (-2147483648)) → (w = "f".toList → ¬ FaceRecord np (w :: ws)) →
      ∃ m' e, Mesh.loadObj np m (stem ++ ".obj".toList) (some (pre ++ l :: post)) friction pose =
        .throw m' e) := by
  unfold Mesh.loadObj
  rw [Mesh.loadWith_eq rfl rfl, Mesh.loadWith_eq rfl rfl, Mesh.lineLoop_append]
  cases hp : Mesh.lineLoop (Mesh.objLine np friction pose) pre
      ⟨[], m.triangles, 0, false, false⟩ with
  | throw s e => exact ⟨fun _ _ h => by simp at h, fun _ _ _ => ⟨_, _, rfl⟩⟩
  | ub w => exact ⟨fun _ _ h => by simp at h, fun h => absurd rfl (h w)⟩
  | ok s u =>
    have notok : ∀ s', Mesh.objLine np friction pose s l ≠ .ok s' := by
      intro s' h
      rcases hbad with ⟨rfl, hb⟩ | ⟨rfl, hb⟩
      · rw [Mesh.objLine_v hl, Res.bind_eq_ok] at h
        obtain ⟨p, hp, -⟩ := h
        obtain ⟨a, b, c, x, y, z, hs, ha, hb', hc⟩ := Mesh.parseNode_ok hp
        rw [Text.split_of_words (Text.words_first_tail hl.1 hl.2).2] at hs
        subst hs
        exact hb ⟨a, b, c, x, y, z, rfl, ha, hb', hc⟩
      · rw [Mesh.objLine_f hl, Res.bind_eq_ok] at h
        obtain ⟨t, ht, -⟩ := h
        obtain ⟨a, b, c, i, j, k, p, q, r, hs, ha, hb', hc', i0, j0, k0, -, -, -, hmk⟩ :=
          Mesh.parseObjFace_ok ht
        rw [Text.split_of_words (Text.words_first_tail hl.1 hl.2).2] at hs
        subst hs
        exact hb ⟨⟨a, b, c, _, _, _, rfl, ha, hb', hc', by omega, by omega, by omega⟩,
          (TriangleGround.make_ok hmk).1⟩
    refine ⟨?_, ?_⟩
    · intro m' b
      simp only [Mesh.lineLoop]
      cases h : Mesh.objLine np friction pose s l with
      | ok s' => exact absurd h (notok s')
      | throw e => simp
      | ub e => simp
    · intro _ hmin hface
      have notub : ∀ e, Mesh.objLine np friction pose s l ≠ .ub e := by
        intro e h
        rcases hbad with ⟨rfl, hb⟩ | ⟨rfl, hb⟩
        · rw [Mesh.objLine_v hl] at h
          unfold Mesh.parseNode at h
          split at h
          · simp only [Mesh.stod] at h
            split at h
            · simp at h
              split at h
              · simp at h
                split at h <;> simp at h
              · simp at h
            · simp at h
          · simp at h
        · rw [Mesh.objLine_f hl] at h
          unfold Mesh.parseObjFace at h
          rw [Text.split_of_words (Text.words_first_tail hl.1 hl.2).2] at h
          split at h
          next a b c =>
            simp only [Mesh.stoiMinus1, Mesh.stoi] at h
            cases ha : np.stoi a with
            | none => simp [ha] at h
            | some i =>
            have gi : i ≠ -2147483648 := fun hh => hmin a (by simp) (hh ▸ ha)
            cases hb : np.stoi b with
            | none => simp [ha, hb, gi] at h
            | some j =>
            have gj : j ≠ -2147483648 := fun hh => hmin b (by simp) (hh ▸ hb)
            cases hc' : np.stoi c with
            | none => simp [ha, hb, hc', gi, gj] at h
            | some k =>
            have gk : k ≠ -2147483648 := fun hh => hmin c (by simp) (hh ▸ hc')
            simp only [ha, hb, hc', Res.bind_ok, gi, gj, gk, if_false, Res.pure_eq] at h
            by_cases i0 : 0 ≤ i - 1
            swap
            · simp only [decide_eq_false i0, Res.assert_false, Res.bind_throw] at h; cases h
            by_cases j0 : 0 ≤ j - 1
            swap
            · simp only [decide_eq_true i0, decide_eq_false j0, Res.assert_true, Res.assert_false,
                Res.bind_ok, Res.bind_throw] at h; cases h
            by_cases k0 : 0 ≤ k - 1
            swap
            · simp only [decide_eq_true i0, decide_eq_true j0, decide_eq_false k0, Res.assert_true,
                Res.assert_false, Res.bind_ok, Res.bind_throw] at h; cases h
            exact hface rfl ⟨a, b, c, i, j, k, rfl, ha, hb, hc', by omega, by omega, by omega⟩
          next => simp at h
      simp only [Mesh.lineLoop]
      cases h : Mesh.objLine np friction pose s l with
      | ok s' => exact absurd h (notok s')
      | throw e => exact ⟨_, _, rfl⟩
      | ub e => exact absurd h (notub e)

/-- **C21** fails for the face index `-2147483648`: subtracting one overflows `int`, whatever
precedes the line, as long as it is reached. -/
theorem C21_obj_smallest_int_refuted (np : NumParse α) (m : Mesh α) (stem l b c : List Char)
    (post : List (List Char)) (friction : α) (pose : Affine α)
    (hl : WordLine l ["f".toList, "-2147483648".toList, b, c])
    (hi : np.stoi "-2147483648".toList = some (-2147483648)) :
    ∃ why, Mesh.loadObj np m (stem ++ ".obj".toList) (some (l :: post)) friction pose =
      .ub why := by
  unfold Mesh.loadObj
  rw [Mesh.loadWith_eq rfl rfl]
  simp only [Mesh.lineLoop, Mesh.objLine_f hl, Mesh.parseObjFace,
    Text.split_of_words (Text.words_first_tail hl.1 hl.2).2, Mesh.stoiMinus1, Mesh.stoi, hi,
    Res.bind_ok, if_true, Res.bind_ub]
  exact ⟨_, rfl⟩

/-! ## References to missing vertices -/

/-- **C22** is false: in the ELEMENTS section, a record whose fields are fine but which refers to a
vertex that has not been listed makes the load access memory out of range. -/
theorem C22_out_of_range_refuted (np : NumParse α) (m : Mesh α) (stem : List Char)
    (pre : List (List Char)) (l : List Char) (post : List (List Char)) (pose : Affine α)
    (st : RdfState α) (hpre : RdfReads np.stod np.stoi (fun f => (zero <=. f) = true) .init pre st)
    (hsec : st.sec = some .elements) (i j k : Nat) (f : α)
    (hl : RdfMeans np.stod np.stoi l (.element i j k f)) (hf : (zero <=. f) = true)
    (hout : st.nodes.length ≤ i ∨ st.nodes.length ≤ j ∨ st.nodes.length ≤ k) :
    ∃ why, Mesh.loadRdf np m (stem ++ ".rdf".toList) (some (pre ++ l :: post)) pose = .ub why := by
  obtain ⟨s, hs, hm⟩ := Mesh.loop_of_reads (Mesh.RdfMatches.init pose m.triangles) hpre
  unfold Mesh.loadRdf
  rw [Mesh.loadWith_eq rfl rfl, Mesh.lineLoop_append, hs]
  obtain ⟨w, hw⟩ : ∃ w, Mesh.rdfLine np pose s l = .ub w := by
    cases hl with
    | element hl hr ha hb hc hd =>
      have f1 : s.nodesParse = false := by
        have : ¬ (st.sec = some .nodes) := by rw [hsec]; simp
        simpa using mt hm.np.1 this
      have f2 : s.elementsParse = true := hm.ep.2 hsec
      rw [Mesh.rdfLine_data hl hr]
      have len : s.nodes.length = st.nodes.length := by rw [hm.nodes]; simp
      have bad : ∀ n : Nat, st.nodes.length ≤ n → Mesh.nodeAt s.nodes (n : Int) =
          .ub "nodes[i] out of range" := by
        intro n hn; simp [Mesh.nodeAt, List.getElem?_eq_none (show s.nodes.length ≤ n by omega)]
      have good : ∀ n : Nat, ¬ st.nodes.length ≤ n → ∃ p, Mesh.nodeAt s.nodes (n : Int) = .ok p := by
        intro n hn
        simp [Mesh.nodeAt, List.getElem?_eq_getElem (show n < s.nodes.length by omega)]
      simp only [Mesh.rdfNode, f1, Bool.false_eq_true, if_false, Res.pure_eq, Res.bind_ok,
        Mesh.rdfElement, f2, if_true, Mesh.parseRdfElement,
        Text.split_of_words hl.2, Mesh.stoi, Mesh.stod, ha, hb, hc, hd, hf, Int.natCast_nonneg,
        decide_true, Res.assert_true]
      by_cases hi : st.nodes.length ≤ i
      · simp [bad i hi]
      · obtain ⟨p, hp⟩ := good i hi
        by_cases hj : st.nodes.length ≤ j
        · simp [hp, bad j hj]
        · obtain ⟨q, hq⟩ := good j hj
          simp [hp, hq, bad k (by omega)]
  simp only [Mesh.lineLoop, hw]
  exact ⟨w, rfl⟩

/-- **C22**, what does hold: an invalid memory access while loading an RDF text (without tabs and
stray line ends) can only come from an element that refers to a vertex that has not been listed. -/
theorem C22_ub_only_from_dangling_partial (np : NumParse α) (m : Mesh α) (path : List Char)
    (lines : List (List Char)) (pose : Affine α) (hc : ∀ l ∈ lines, Clean l) (why : String)
    (h : Mesh.loadRdf np m path (some lines) pose = .ub why) :
    ∃ pre l post st, lines = pre ++ l :: post ∧
      RdfReads np.stod np.stoi (fun f => (zero <=. f) = true) .init pre st ∧
      ∃ (i j k : Nat) (f : α), RdfMeans np.stod np.stoi l (.element i j k f) ∧
        (st.nodes.length ≤ i ∨ st.nodes.length ≤ j ∨ st.nodes.length ≤ k) := by
  unfold Mesh.loadRdf Mesh.loadWith at h
  split at h
  · cases h
  next he => unfold Mesh.extension at he; split at he <;> cases he
  split at h
  · cases h
  simp only at h
  split at h
  next => unfold Mesh.loadFinish at h; simp only at h; split at h; cases h; split at h <;> cases h
  next => cases h
  next w hw =>
    obtain ⟨pre, l, post, st, e, hr, -, i, j, k, f, hm, -, hn⟩ :=
      Mesh.dangling_of_loop (Mesh.RdfMatches.init pose m.triangles) hc hw
    exact ⟨pre, l, post, st, e, hr, i, j, k, f, hm, by omega⟩

/-- **C22** is false for OBJ texts as well. -/
theorem C22_obj_out_of_range_refuted (np : NumParse α) (m : Mesh α) (stem : List Char)
    (pre : List (List Char)) (l : List Char) (post : List (List Char)) (friction : α)
    (pose : Affine α) (st : ObjState α) (hpre : ObjReads np.stod np.stoi .init pre st)
    (hf : (zero <=. friction) = true) (i j k : Nat) (hi : 1 ≤ i) (hj : 1 ≤ j) (hk : 1 ≤ k)
    (hl : ObjMeans np.stod np.stoi l (.face i j k))
    (hout : st.vertices.length < i ∨ st.vertices.length < j ∨ st.vertices.length < k) :
    ∃ why, Mesh.loadObj np m (stem ++ ".obj".toList) (some (pre ++ l :: post)) friction pose =
      .ub why := by
  obtain ⟨s, hs, hm⟩ := Mesh.loop_of_objReads hf (Mesh.ObjMatches.init friction pose m.triangles)
    hpre
  unfold Mesh.loadObj
  rw [Mesh.loadWith_eq rfl rfl, Mesh.lineLoop_append, hs]
  obtain ⟨w, hw⟩ : ∃ w, Mesh.objLine np friction pose s l = .ub w := by
    cases hl with
    | face hl ha hb hc =>
      rw [Mesh.objLine_f hl]
      have len : s.nodes.length = st.vertices.length := by rw [hm.nodes]; simp
      have bad : ∀ n : Nat, 1 ≤ n → st.vertices.length < n →
          Mesh.nodeAt s.nodes ((n - 1 : Nat) : Int) = .ub "nodes[i] out of range" := by
        intro n h1 hn
        simp only [Mesh.nodeAt, Int.toNat_natCast,
          List.getElem?_eq_none (show s.nodes.length ≤ n - 1 by omega)]
      have good : ∀ n : Nat, 1 ≤ n → ¬ st.vertices.length < n →
          ∃ p, Mesh.nodeAt s.nodes ((n - 1 : Nat) : Int) = .ok p := by
        intro n h1 hn
        simp only [Mesh.nodeAt, Int.toNat_natCast,
          List.getElem?_eq_getElem (show n - 1 < s.nodes.length by omega)]
        exact ⟨_, rfl⟩
      simp only [Mesh.parseObjFace, Text.split_of_words (Text.words_first_tail hl.1 hl.2).2,
        Mesh.stoiMinus1_of ha hi, Mesh.stoiMinus1_of hb hj, Mesh.stoiMinus1_of hc hk, Res.bind_ok,
        Int.natCast_nonneg, decide_true, Res.assert_true]
      by_cases hi' : st.vertices.length < i
      · simp [bad i hi hi']
      · obtain ⟨p, hp⟩ := good i hi hi'
        by_cases hj' : st.vertices.length < j
        · simp only [hp, bad j hj hj', Res.bind_ok, Res.bind_ub]; exact ⟨_, rfl⟩
        · obtain ⟨q, hq⟩ := good j hj hj'
          simp only [hp, hq, bad k hk (by omega), Res.bind_ok, Res.bind_ub]; exact ⟨_, rfl⟩
  simp only [Mesh.lineLoop, hw]
  exact ⟨w, rfl⟩

/-! ## Loading twice -/

/-- **C23** is false: loading into a mesh that holds triangles never succeeds, … -/
theorem C23_reload_never_succeeds_refuted (np : NumParse α) (m : Mesh α) (hm : m.triangles ≠ [])
    (path : List Char) (file : Option (List (List Char))) (friction : α) (pose : Affine α)
    (m' : Mesh α) (b : Bool) :
    Mesh.loadRdf np m path file pose ≠ .ok m' b ∧
    Mesh.loadObj np m path file friction pose ≠ .ok m' b := by
  have key : ∀ (step : Mesh.LoadState α → List Char → Res (Mesh.LoadState α)) ext,
      (∀ s l s', step s l = .ok s' → Mesh.StepOk s s') →
      Mesh.loadWith step ext m path file ≠ .ok m' b := by
    intro step ext hstep h
    obtain ⟨lines, s, u, -, hl, h1, -⟩ := Mesh.loadWith_ok h
    obtain ⟨new, e1, e2, -⟩ := ((Mesh.lineLoop_inv hstep lines _ (Mesh.loadInv_init m)).1 s u hl).ex
    rw [e1, List.length_append, e2] at h1
    have : m.triangles.length ≠ 0 := fun h => hm (List.length_eq_zero_iff.mp h)
    omega
  exact ⟨key _ _ fun _ _ _ => Mesh.rdfLine_step, key _ _ fun _ _ _ => Mesh.objLine_step⟩

/-- … and a well formed file makes it raise an error *and* change the mesh: the new triangles are
appended to the old ones while boxes and search tree stay those of the old triangles. -/
theorem C23_reload_refuted (np : NumParse α) (m : Mesh α) (hm : m.triangles ≠ [])
    (stem : List Char) (lines : List (List Char)) (pose : Affine α) (st : RdfState α)
    (h : RdfReads np.stod np.stoi (fun f => (zero <=. f) = true) .init lines st)
    (hne : st.elements ≠ []) :
    ∃ m' e new, Mesh.loadRdf np m (stem ++ ".rdf".toList) (some lines) pose = .throw m' e ∧
      m'.triangles = m.triangles ++ new ∧ new.length = st.elements.length ∧ new ≠ [] ∧
      m'.bboxes = m.bboxes ∧ m'.tree = m.tree := by
  obtain ⟨s, hs, hmt⟩ := Mesh.loop_of_reads (Mesh.RdfMatches.init pose m.triangles) h
  obtain ⟨new, k1, k2⟩ := hmt.tris
  refine ⟨{ m with triangles := s.triangles }, "safety check not passed.", new, ?_, k1,
    k2.length_eq.symm, ?_, rfl, rfl⟩
  · unfold Mesh.loadRdf
    rw [Mesh.loadWith_eq rfl rfl, hs]
    simp only [Mesh.loadFinish]
    rw [if_pos]
    rw [k1, hmt.count, List.length_append, k2.length_eq]
    have : m.triangles.length ≠ 0 := fun h => hm (List.length_eq_zero_iff.mp h)
    omega
  · rintro rfl
    cases k2' : st.elements with
    | nil => exact hne k2'
    | cons a as => rw [k2'] at k2; cases k2

/-- **C23**, what does hold: after `clear()` a load gives exactly what it gives on a new mesh; and a
wrong file extension or a missing file leaves the mesh unchanged. -/
theorem C23_reload_partial (np : NumParse α) (m m' : Mesh α) (path : List Char)
    (file : Option (List (List Char))) (friction : α) (pose : Affine α) (b : Bool) :
    (Mesh.loadRdf np m.clear path file pose = .ok m' b ↔
      Mesh.loadRdf np Mesh.empty path file pose = .ok m' b) ∧
    (Mesh.loadObj np m.clear path file friction pose = .ok m' b ↔
      Mesh.loadObj np Mesh.empty path file friction pose = .ok m' b) ∧
    (file = none → ∃ e, Mesh.loadRdf np m path file pose = .throw m e) ∧
    (¬ (∃ stem, path = stem ++ ".rdf".toList) →
      ∃ e, Mesh.loadRdf np m path file pose = .throw m e) := by
  have key : ∀ (step : Mesh.LoadState α → List Char → Res (Mesh.LoadState α)) ext,
      Mesh.loadWith step ext m.clear path file = .ok m' b ↔
      Mesh.loadWith step ext Mesh.empty path file = .ok m' b := by
    intro step ext
    unfold Mesh.loadWith
    cases Mesh.extension path with
    | throw e => simp
    | ub e => simp
    | ok e =>
      simp only
      split
      · simp
      · cases file with
        | none => simp
        | some lines =>
          have e1 : m.clear.triangles = [] := rfl
          have e2 : (Mesh.empty : Mesh α).triangles = [] := rfl
          simp only [e1, e2]
          cases Mesh.lineLoop step lines ⟨[], [], 0, false, false⟩ with
          | throw => simp
          | ub => simp
          | ok s u =>
            simp only [Mesh.loadFinish]
            split
            · simp
            split
            · simp
            · exact Iff.rfl
  refine ⟨key _ _, key _ _, ?_, ?_⟩
  · rintro rfl
    unfold Mesh.loadRdf Mesh.loadWith
    cases he : Mesh.extension path with
    | throw e => exact ⟨e, rfl⟩
    | ub e => unfold Mesh.extension at he; split at he <;> cases he
    | ok e =>
      simp only
      split
      · exact ⟨_, rfl⟩
      · exact ⟨_, rfl⟩
  · intro hn
    unfold Mesh.loadRdf Mesh.loadWith
    cases he : Mesh.extension path with
    | throw e => exact ⟨e, rfl⟩
    | ub e => unfold Mesh.extension at he; split at he <;> cases he
    | ok e =>
      simp only
      rw [if_pos]
      · exact ⟨_, rfl⟩
      · rintro rfl
        unfold Mesh.extension at he
        split at he
        · cases he
        · have := Res.ok.inj he
          exact hn ⟨path.take (path.length - 4), by rw [← this, List.take_append_drop]⟩

/-! ## Blank lines -/

/-- **C24**, OBJ: inserting a blank line anywhere changes nothing, for any text. -/
theorem C24_obj_blank_lines_partial (np : NumParse α) (m : Mesh α) (path : List Char)
    (a b : List (List Char)) (blank : List Char) (hb : Blank blank) (friction : α)
    (pose : Affine α) :
    Mesh.loadObj np m path (some (a ++ blank :: b)) friction pose =
      Mesh.loadObj np m path (some (a ++ b)) friction pose := by
  have : ∀ s, Mesh.lineLoop (Mesh.objLine np friction pose) (a ++ blank :: b) s =
      Mesh.lineLoop (Mesh.objLine np friction pose) (a ++ b) s := by
    intro s
    rw [Mesh.lineLoop_append, Mesh.lineLoop_append]
    cases Mesh.lineLoop (Mesh.objLine np friction pose) a s with
    | ok s' u => simp only [Mesh.lineLoop, Mesh.objLine_blank hb]
    | throw => rfl
    | ub => rfl
  unfold Mesh.loadObj Mesh.loadWith
  simp only [this]

/-- **C24**, RDF: inserting a comment anywhere, or a line of spaces before the first header, changes
nothing, for any text. -/
theorem C24_rdf_blank_lines_partial (np : NumParse α) (m : Mesh α) (path : List Char)
    (a b : List (List Char)) (l : List Char) (pose : Affine α)
    (h : RdfMeans np.stod np.stoi l .comment ∨
      (WordLine l [] ∧ ∀ k ∈ a, ∃ ws, WordLine k ws ∧ ∀ w ∈ ws.head?, ¬ Reserved w ∨ CommentWord w)) :
    Mesh.loadRdf np m path (some (a ++ l :: b)) pose =
      Mesh.loadRdf np m path (some (a ++ b)) pose := by
  have : ∀ (s : Mesh.LoadState α), s.nodesParse = false → s.elementsParse = false →
      Mesh.lineLoop (Mesh.rdfLine np pose) (a ++ l :: b) s =
      Mesh.lineLoop (Mesh.rdfLine np pose) (a ++ b) s := by
    intro s f1 f2
    rw [Mesh.lineLoop_append, Mesh.lineLoop_append]
    rcases h with h | ⟨hl, ha⟩
    · cases Mesh.lineLoop (Mesh.rdfLine np pose) a s with
      | ok s' u =>
        cases h with
        | comment hl hw => simp only [Mesh.lineLoop, Mesh.rdfLine_comment hl hw]
      | throw => rfl
      | ub => rfl
    · have skip : ∀ k, (∃ ws, WordLine k ws ∧ ∀ w ∈ ws.head?, ¬ Reserved w ∨ CommentWord w) →
          Mesh.rdfLine np pose s k = .ok s := by
        rintro k ⟨ws, hk, hw⟩
        by_cases hcw : ∃ w ∈ ws.head?, CommentWord w
        · obtain ⟨w, hw1, hw2⟩ := hcw
          cases ws with
          | nil => simp at hw1
          | cons w' ws => simp at hw1; subst hw1; exact Mesh.rdfLine_comment hk hw2
        · rw [Mesh.rdfLine_data' hk (fun w hw1 => (hw w hw1).resolve_right
            (fun hc => hcw ⟨w, hw1, hc⟩))]
          simp [Mesh.rdfNode, Mesh.rdfElement, f1, f2]
      have hloop : Mesh.lineLoop (Mesh.rdfLine np pose) a s = .ok s () := by
        induction a with
        | nil => rfl
        | cons k a ih =>
          simp only [Mesh.lineLoop, skip k (ha k (by simp))]
          exact ih fun k hk => ha k (by simp [hk])
      rw [hloop]
      simp only [Mesh.lineLoop, skip l ⟨[], hl, by simp⟩]
  unfold Mesh.loadRdf Mesh.loadWith
  simp only [this ⟨[], m.triangles, 0, false, false⟩ rfl rfl]

/-- **C24** is false for RDF: a line of spaces inside the NODES or the ELEMENTS section makes the
load raise an error, whatever follows. -/
theorem C24_rdf_blank_line_refuted (np : NumParse α) (m : Mesh α) (stem : List Char)
    (pre : List (List Char)) (l : List Char) (post : List (List Char)) (pose : Affine α)
    (st : RdfState α) (hpre : RdfReads np.stod np.stoi (fun f => (zero <=. f) = true) .init pre st)
    (hsec : st.sec ≠ none) (hl : WordLine l []) :
    ∃ m' e, Mesh.loadRdf np m (stem ++ ".rdf".toList) (some (pre ++ l :: post)) pose =
      .throw m' e := by
  obtain ⟨s, hs, hm⟩ := Mesh.loop_of_reads (Mesh.RdfMatches.init pose m.triangles) hpre
  unfold Mesh.loadRdf
  rw [Mesh.loadWith_eq rfl rfl, Mesh.lineLoop_append, hs]
  obtain ⟨w, hw⟩ : ∃ w, Mesh.rdfLine np pose s l = .throw w := by
    rw [Mesh.rdfLine_data' hl (by simp)]
    match hsec' : st.sec with
    | none => exact absurd hsec' hsec
    | some .nodes =>
      simp [Mesh.rdfNode, hm.np.2 hsec', Mesh.parseNode,
        Mesh.tail_nil_of_blank (Mesh.wordLine_nil hl.2), Text.split_of_words Words.nil]
    | some .elements =>
      have f1 : s.nodesParse = false := by
        have : ¬ (st.sec = some .nodes) := by rw [hsec']; simp
        simpa using mt hm.np.1 this
      simp [Mesh.rdfNode, f1, Mesh.rdfElement, hm.ep.2 hsec', Mesh.parseRdfElement,
        Text.split_of_words hl.2]
  simp only [Mesh.lineLoop, hw]
  exact ⟨_, _, rfl⟩

/-- **C22**, OBJ, what does hold. -/
theorem C22_obj_ub_only_from_dangling_partial (np : NumParse α) (m : Mesh α) (path : List Char)
    (lines : List (List Char)) (friction : α) (pose : Affine α) (hc : ∀ l ∈ lines, Clean l)
    (hf : (zero <=. friction) = true) (why : String)
    (h : Mesh.loadObj np m path (some lines) friction pose = .ub why) :
    ∃ pre l post st, lines = pre ++ l :: post ∧ ObjReads np.stod np.stoi .init pre st ∧
      ((∃ i j k : Nat, ObjMeans np.stod np.stoi l (.face i j k) ∧
        (st.vertices.length < i ∨ st.vertices.length < j ∨ st.vertices.length < k)) ∨
      ∃ ws, WordLine l ("f".toList :: ws) ∧ ∃ w ∈ ws, np.stoi w = some (-2147483648)) := by
  unfold Mesh.loadObj Mesh.loadWith at h
  split at h
  · cases h
  next he => unfold Mesh.extension at he; split at he <;> cases he
  split at h
  · cases h
  simp only at h
  split at h
  next => unfold Mesh.loadFinish at h; simp only at h; split at h; cases h; split at h <;> cases h
  next => cases h
  next w hw =>
    obtain ⟨pre, l, post, st, e, hr, hd⟩ :=
      Mesh.dangling_of_objLoop hf (Mesh.ObjMatches.init friction pose m.triangles) hc hw
    refine ⟨pre, l, post, st, e, hr, ?_⟩
    rcases hd with ⟨i, j, k, hm, hn⟩ | hd
    · exact Or.inl ⟨i, j, k, hm, by omega⟩
    · exact Or.inr hd

/-! ## Non-vacuity: concrete texts meeting the hypotheses above -/

section Demo

/-- A number reader for the literals used below. -/
def demoNum : NumParse ℝ where
  stod
    | ['0'] => some 0
    | ['1'] => some 1
    | _ => none
  stoi
    | ['0'] => some 0
    | ['1'] => some 1
    | ['2'] => some 2
    | ['3'] => some 3
    | ['9'] => some 9
    | ['-', '2', '1', '4', '7', '4', '8', '3', '6', '4', '8'] => some (-2147483648)
    | _ => none

private theorem wl {l : List Char} {ws : List (List Char)} (h1 : ∀ c ∈ l, c ≠ '\t' ∧ c ≠ '\r' ∧ c ≠ '\n')
    (h2 : Text.split l = ws) : WordLine l ws := ⟨h1, (Text.words_iff l ws).2 h2⟩

private theorem nres {w : List Char} (h : w.head? ≠ some '{' ∧ w.head? ≠ some '%' ∧
    w.head? ≠ some '#' ∧ w ≠ "[NODES]".toList ∧ w ≠ "NODES".toList ∧ w ≠ "[ELEMENTS]".toList ∧
    w ≠ "ELEMENTS".toList) : ¬ Reserved w := by
  simp only [Reserved, CommentWord, NodesWord, ElementsWord]
  tauto

private theorem d0 : demoNum.stod "0".toList = some 0 := rfl
private theorem d1 : demoNum.stod "1".toList = some 1 := rfl
private theorem i0 : demoNum.stoi "0".toList = some ((0 : Nat) : Int) := rfl
private theorem i1 : demoNum.stoi "1".toList = some ((1 : Nat) : Int) := rfl
private theorem i2 : demoNum.stoi "2".toList = some ((2 : Nat) : Int) := rfl
private theorem i3 : demoNum.stoi "3".toList = some ((3 : Nat) : Int) := rfl
private theorem i9 : demoNum.stoi "9".toList = some ((9 : Nat) : Int) := rfl

/-- A comment, three nodes, and the header of the elements. -/
def demoPrefix : List (List Char) :=
  ["# ground".toList, "[NODES]".toList, "1 0 0 0".toList, "2 1 0 0".toList, "3 0 1 0".toList,
    "[ELEMENTS]".toList]

def demoNodes : List (ℝ × ℝ × ℝ) := [(0, 0, 0), (1, 0, 0), (0, 1, 0)]

private theorem m1 : RdfMeans demoNum.stod demoNum.stoi "# ground".toList .comment :=
  .comment (wl (ws := ["#".toList, "ground".toList]) (by decide) (by decide)) (by simp [CommentWord])
private theorem m2 : RdfMeans demoNum.stod demoNum.stoi "[NODES]".toList .nodesHeader :=
  .nodes (wl (ws := ["[NODES]".toList]) (by decide) (by decide)) (Or.inl rfl)
private theorem m3 : RdfMeans demoNum.stod demoNum.stoi "1 0 0 0".toList (.node 0 0 0) :=
  .node (wl (ws := ["1".toList, "0".toList, "0".toList, "0".toList]) (by decide) (by decide))
    (nres (by decide)) d0 d0 d0
private theorem m4 : RdfMeans demoNum.stod demoNum.stoi "2 1 0 0".toList (.node 1 0 0) :=
  .node (wl (ws := ["2".toList, "1".toList, "0".toList, "0".toList]) (by decide) (by decide))
    (nres (by decide)) d1 d0 d0
private theorem m5 : RdfMeans demoNum.stod demoNum.stoi "3 0 1 0".toList (.node 0 1 0) :=
  .node (wl (ws := ["3".toList, "0".toList, "1".toList, "0".toList]) (by decide) (by decide))
    (nres (by decide)) d0 d1 d0
private theorem m6 : RdfMeans demoNum.stod demoNum.stoi "[ELEMENTS]".toList .elementsHeader :=
  .elements (wl (ws := ["[ELEMENTS]".toList]) (by decide) (by decide)) (Or.inl rfl)
private theorem m7 : RdfMeans demoNum.stod demoNum.stoi "0 1 2 1".toList (.element 0 1 2 1) :=
  .element (wl (ws := ["0".toList, "1".toList, "2".toList, "1".toList]) (by decide) (by decide))
    (nres (by decide)) i0 i1 i2 d1
private theorem m8 : RdfMeans demoNum.stod demoNum.stoi "0 1 9 1".toList (.element 0 1 9 1) :=
  .element (wl (ws := ["0".toList, "1".toList, "9".toList, "1".toList]) (by decide) (by decide))
    (nres (by decide)) i0 i1 i9 d1

theorem demoPrefix_reads : RdfReads demoNum.stod demoNum.stoi (fun f => (zero <=. f) = true) .init
    demoPrefix ⟨some .elements, demoNodes, []⟩ :=
  .cons (.comment m1) (.cons (.nodes m2) (.cons (.node m3) (.cons (.node m4) (.cons (.node m5)
    (.cons (.elements m6) .nil)))))

/-- C19: a text with a comment, three nodes and one element is well formed. -/
theorem demo_rdfText : RdfText demoNum.stod demoNum.stoi (fun f => (zero <=. f) = true)
    (demoPrefix ++ ["0 1 2 1".toList]) demoNodes [(0, 1, 2, 1)] where
  ex := ⟨[.comment], [.node 0 0 0, .node 1 0 0, .node 0 1 0], [.element 0 1 2 1],
    .cons m1 (.cons m2 (.cons m3 (.cons m4 (.cons m5 (.cons m6 (.cons m7 .nil)))))),
    by simp, by simp, by simp, rfl, rfl⟩
  range := by
    intro i j k f h
    simp at h
    obtain ⟨rfl, rfl, rfl, rfl⟩ := h
    simp [demoNodes]
  ne := by simp

/-- C19 (exact), C23: the same text can be read and lists an element. -/
theorem demo_reads : RdfReads demoNum.stod demoNum.stoi (fun f => (zero <=. f) = true) .init
    (demoPrefix ++ ["0 1 2 1".toList]) ⟨some .elements, demoNodes, [(0, 1, 2, 1)]⟩ :=
  .cons (.comment m1) (.cons (.nodes m2) (.cons (.node m3) (.cons (.node m4) (.cons (.node m5)
    (.cons (.elements m6) (.cons (.element m7 (by simp) (by simp) (by simp) (by simp)) .nil))))))

/-- C22 (refuted): an element that refers to node 9 after three nodes; loading it is undefined
behaviour. -/
example : ∃ why, Mesh.loadRdf demoNum Mesh.empty "a.rdf".toList
    (some (demoPrefix ++ "0 1 9 1".toList :: [])) Affine.id = .ub why :=
  C22_out_of_range_refuted demoNum Mesh.empty "a".toList demoPrefix _ [] _ _ demoPrefix_reads rfl
    0 1 9 1 m8 (by simp) (by simp [demoNodes])

/-- C24 (refuted): an empty line in the ELEMENTS section of an otherwise well formed text. -/
example : ∃ m' e, Mesh.loadRdf demoNum Mesh.empty "a.rdf".toList
    (some (demoPrefix ++ [] :: ["0 1 2 1".toList])) Affine.id = .throw m' e :=
  C24_rdf_blank_line_refuted demoNum Mesh.empty "a".toList demoPrefix [] _ _ _ demoPrefix_reads
    (by simp) ⟨by simp [Clean], .nil⟩

/-- C23 (refuted): reloading the text into a mesh that already holds its triangle. -/
example (t : TriangleGround ℝ) : ∃ m' e new, Mesh.loadRdf demoNum (Mesh.ofTriangles [t])
    "a.rdf".toList (some (demoPrefix ++ ["0 1 2 1".toList])) Affine.id = .throw m' e ∧
      m'.triangles = t :: new ∧ new.length = 1 ∧ new ≠ [] ∧
      m'.bboxes = (Mesh.ofTriangles [t]).bboxes ∧ m'.tree = (Mesh.ofTriangles [t]).tree :=
  C23_reload_refuted demoNum (Mesh.ofTriangles [t]) (List.cons_ne_nil t []) "a".toList _ _ _
    demo_reads (by simp)

/-- C21: an element line with three fields after the ELEMENTS header. -/
example : ∃ m' e, Mesh.loadRdf demoNum Mesh.empty "a.rdf".toList
    (some (demoPrefix ++ "0 1 2".toList :: [])) Affine.id = .throw m' e := by
  refine (C21_rdf_malformed_rejected demoNum Mesh.empty "a".toList demoPrefix "0 1 2".toList []
    Affine.id ["0".toList, "1".toList, "2".toList] (by unfold Clean; decide)
    ⟨wl (by decide) (by decide), ?_⟩ (Or.inr ⟨?_, ?_⟩)).2 ?_
  · intro w hw; simp at hw; subst hw; exact nres (by decide)
  · exact ⟨demoPrefix.take 5, "[ELEMENTS]".toList, [], "[ELEMENTS]".toList, [], rfl,
      wl (by decide) (by decide), Or.inl rfl, by simp⟩
  · rintro ⟨a, b, c, d, i, j, k, f, h, -⟩; simp at h
  · intro why h
    obtain ⟨s, hs, -⟩ := Mesh.loop_of_reads
      (Mesh.RdfMatches.init Affine.id (Mesh.empty : Mesh ℝ).triangles) demoPrefix_reads
    unfold Mesh.loadRdf at h
    rw [Mesh.loadWith_eq (stem := "a".toList) rfl rfl, hs] at h
    simp only [Mesh.loadFinish] at h
    split at h
    · cases h
    · split at h <;> cases h

private theorem o1 : ObjMeans demoNum.stod demoNum.stoi "v 0 0 0".toList (.vertex 0 0 0) :=
  .vertex (wl (by decide) (by decide)) d0 d0 d0
private theorem o2 : ObjMeans demoNum.stod demoNum.stoi "v 1 0 0".toList (.vertex 1 0 0) :=
  .vertex (wl (by decide) (by decide)) d1 d0 d0
private theorem o3 : ObjMeans demoNum.stod demoNum.stoi "v 0 1 0".toList (.vertex 0 1 0) :=
  .vertex (wl (by decide) (by decide)) d0 d1 d0
private theorem o4 : ObjMeans demoNum.stod demoNum.stoi "f 1 2 3".toList (.face 1 2 3) :=
  .face (wl (by decide) (by decide)) i1 i2 i3
private theorem o5 : ObjMeans demoNum.stod demoNum.stoi "".toList .other :=
  .blank (by simp [Blank])
private theorem o6 : ObjMeans demoNum.stod demoNum.stoi "f 1 2 9".toList (.face 1 2 9) :=
  .face (wl (by decide) (by decide)) i1 i2 i9

/-- C20: an OBJ text with three vertices, an empty line and a face. -/
theorem demo_objReads : ObjReads demoNum.stod demoNum.stoi .init
    ["v 0 0 0".toList, "v 1 0 0".toList, "v 0 1 0".toList, "".toList, "f 1 2 3".toList]
    ⟨demoNodes, [(1, 2, 3)]⟩ :=
  .cons (.vertex o1) (.cons (.vertex o2) (.cons (.vertex o3) (.cons (.other o5)
    (.cons (.face o4 (by simp) (by simp) (by simp)) .nil))))

/-- C22 (refuted), OBJ. -/
example : ∃ why, Mesh.loadObj demoNum Mesh.empty "a.obj".toList
    (some (["v 0 0 0".toList] ++ "f 1 2 9".toList :: [])) 1 Affine.id = .ub why :=
  C22_obj_out_of_range_refuted demoNum Mesh.empty "a".toList _ _ [] 1 _ ⟨[(0, 0, 0)], []⟩
    (.cons (.vertex o1) .nil) (by simp) 1 2 9 (by simp) (by simp) (by simp) o6 (by simp)

/-- C21 (refuted), OBJ. -/
example : ∃ why, Mesh.loadObj demoNum Mesh.empty "a.obj".toList
    (some ["f -2147483648 1 1".toList]) 1 Affine.id = .ub why :=
  C21_obj_smallest_int_refuted demoNum Mesh.empty "a".toList _ "1".toList "1".toList [] 1 _
    (wl (by decide) (by decide)) rfl

/-- C21, OBJ: a face with two indices. -/
example : ∃ m' e, Mesh.loadObj demoNum Mesh.empty "a.obj".toList
    (some ([] ++ "f 1 2".toList :: [])) 1 Affine.id = .throw m' e := by
  have hno : ¬ FaceRecord demoNum ["f".toList, "1".toList, "2".toList] := by
    rintro ⟨a, b, c, i, j, k, h, -⟩; simp at h
  refine (C21_obj_malformed_rejected_partial demoNum Mesh.empty "a".toList [] "f 1 2".toList []
    1 Affine.id "f".toList ["1".toList, "2".toList] (wl (by decide) (by decide))
    (Or.inr ⟨rfl, fun h => hno h.1⟩)).2 ?_ ?_ fun _ => hno
  · intro why h
    unfold Mesh.loadObj at h
    rw [Mesh.loadWith_eq (stem := "a".toList) rfl rfl] at h
    simp [Mesh.lineLoop, Mesh.loadFinish, Mesh.empty] at h
  · intro u hu; rw [List.mem_pair] at hu; rcases hu with rfl | rfl
    · rw [i1]; simp
    · rw [i2]; simp

end Demo

end Enve
