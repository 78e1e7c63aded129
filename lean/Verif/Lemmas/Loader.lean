import Verif.Lemmas.Mesh
import Verif.Lemmas.Text
import Verif.Spec.MeshFile

/-! # The loader loops -/

namespace Enve
namespace Mesh
open Scalar Spec
variable {α : Type} [Scalar α]

omit [Scalar α] in
theorem lineLoop_append (step : LoadState α → List Char → Res (LoadState α))
    (ls ks : List (List Char)) (s : LoadState α) :
    lineLoop step (ls ++ ks) s =
      match lineLoop step ls s with
      | .ok s' _ => lineLoop step ks s'
      | .throw s' m => .throw s' m
      | .ub w => .ub w := by
  induction ls generalizing s with
  | nil => rfl
  | cons l ls ih =>
    simp only [List.cons_append, lineLoop]
    cases step s l with
    | ok s' => exact ih s'
    | throw m => rfl
    | ub w => rfl

/-- What a line can do to the list of triangles. -/
def StepOk (s s' : LoadState α) : Prop :=
  (s'.triangles = s.triangles ∧ s'.elements = s.elements) ∨
  ∃ t, s'.triangles = s.triangles ++ [t] ∧ s'.elements = s.elements + 1 ∧ t.Constructed ∧
    t.id = (s.elements : Int)

theorem parseRdfElement_ok {np : NumParse α} {nodes : List (V3 α)} {id : Nat} {l : List Char}
    {t : TriangleGround α} (h : parseRdfElement np nodes id l = .ok t) :
    ∃ a b c d i j k f p q r, Text.split l = [a, b, c, d] ∧ np.stoi a = some i ∧
      np.stoi b = some j ∧ np.stoi c = some k ∧ np.stod d = some f ∧ 0 ≤ i ∧ 0 ≤ j ∧ 0 ≤ k ∧
      nodes[i.toNat]? = some p ∧ nodes[j.toNat]? = some q ∧ nodes[k.toNat]? = some r ∧
      TriangleGround.make id f p q r = .ok t := by
  unfold parseRdfElement at h
  split at h
  next a b c d hs =>
    simp only [Res.bind_eq_ok, stoi, stod, nodeAt] at h
    obtain ⟨i, hi, j, hj, k, hk, f, hf, _, h0, _, h1, _, h2, _, h3, p, hp, q, hq, r, hr, h⟩ := h
    refine ⟨a, b, c, d, i, j, k, f, p, q, r, hs, ?_, ?_, ?_, ?_, ?_, ?_, ?_, ?_, ?_, ?_, h⟩
    · split at hi <;> simp_all
    · split at hj <;> simp_all
    · split at hk <;> simp_all
    · split at hf <;> simp_all
    · by_contra hc; simp [hc] at h0
    · by_contra hc; simp [hc] at h1
    · by_contra hc; simp [hc] at h2
    · split at hp <;> simp_all
    · split at hq <;> simp_all
    · split at hr <;> simp_all
  next => simp at h

omit [Scalar α] in
theorem stoiMinus1_ok {np : NumParse α} {s : List Char} {i : Int}
    (h : stoiMinus1 np s = .ok i) : np.stoi s = some (i + 1) := by
  unfold stoiMinus1 stoi at h
  split at h
  next x hx =>
    simp at h
    split at h
    · simp at h
    · simp at h; subst h; rw [hx]; simp
  next => simp at h

theorem parseObjFace_ok {np : NumParse α} {friction : α} {nodes : List (V3 α)} {id : Nat}
    {l : List Char} {t : TriangleGround α} (h : parseObjFace np friction nodes id l = .ok t) :
    ∃ a b c i j k p q r, Text.split (Text.tail l) = [a, b, c] ∧ np.stoi a = some (i + 1) ∧
      np.stoi b = some (j + 1) ∧ np.stoi c = some (k + 1) ∧ 0 ≤ i ∧ 0 ≤ j ∧ 0 ≤ k ∧
      nodes[i.toNat]? = some p ∧ nodes[j.toNat]? = some q ∧ nodes[k.toNat]? = some r ∧
      TriangleGround.make id friction p q r = .ok t := by
  unfold parseObjFace at h
  split at h
  next a b c hs =>
    simp only [Res.bind_eq_ok, nodeAt] at h
    obtain ⟨i, hi, j, hj, k, hk, _, h0, _, h1, _, h2, p, hp, q, hq, r, hr, h⟩ := h
    refine ⟨a, b, c, i, j, k, p, q, r, hs, stoiMinus1_ok hi, stoiMinus1_ok hj, stoiMinus1_ok hk,
      ?_, ?_, ?_, ?_, ?_, ?_, h⟩
    · by_contra hc; simp [hc] at h0
    · by_contra hc; simp [hc] at h1
    · by_contra hc; simp [hc] at h2
    · split at hp <;> simp_all
    · split at hq <;> simp_all
    · split at hr <;> simp_all
  next => simp at h

theorem make_id {id : Int} {f : α} {p q r : V3 α} {t : TriangleGround α}
    (h : TriangleGround.make id f p q r = .ok t) : t.id = id := by
  obtain ⟨-, rfl⟩ := TriangleGround.make_ok h; rfl

theorem rdfLine_step {np : NumParse α} {pose : Affine α} {s s' : LoadState α} {l : List Char}
    (h : rdfLine np pose s l = .ok s') : StepOk s s' := by
  unfold rdfLine at h
  simp only at h
  split at h
  · cases h; exact Or.inl ⟨rfl, rfl⟩
  split at h
  · cases h; exact Or.inl ⟨rfl, rfl⟩
  split at h
  · cases h; exact Or.inl ⟨rfl, rfl⟩
  split at h
  · cases h; exact Or.inl ⟨rfl, rfl⟩
  rw [Res.bind_eq_ok] at h
  obtain ⟨s1, h1, h2⟩ := h
  have hs1 : s1.triangles = s.triangles ∧ s1.elements = s.elements := by
    unfold rdfNode at h1
    split at h1
    · rw [Res.bind_eq_ok] at h1
      obtain ⟨p, -, h1⟩ := h1
      cases h1; exact ⟨rfl, rfl⟩
    · cases h1; exact ⟨rfl, rfl⟩
  unfold rdfElement at h2
  split at h2
  · rw [Res.bind_eq_ok] at h2
    obtain ⟨t, ht, h2⟩ := h2
    cases h2
    obtain ⟨a, b, c, d, i, j, k, f, p, q, r, -, -, -, -, -, -, -, -, -, -, -, hm⟩ :=
      parseRdfElement_ok ht
    exact Or.inr ⟨t, by rw [hs1.1], by rw [hs1.2], ⟨_, _, _, _, _, hm⟩, by rw [make_id hm, hs1.2]⟩
  · cases h2; exact Or.inl hs1

theorem objLine_step {np : NumParse α} {friction : α} {pose : Affine α} {s s' : LoadState α}
    {l : List Char} (h : objLine np friction pose s l = .ok s') : StepOk s s' := by
  unfold objLine at h
  simp only at h
  split at h
  · rw [Res.bind_eq_ok] at h
    obtain ⟨p, -, h⟩ := h
    cases h; exact Or.inl ⟨rfl, rfl⟩
  split at h
  · rw [Res.bind_eq_ok] at h
    obtain ⟨t, ht, h⟩ := h
    cases h
    obtain ⟨a, b, c, i, j, k, p, q, r, -, -, -, -, -, -, -, -, -, -, hm⟩ := parseObjFace_ok ht
    exact Or.inr ⟨t, rfl, rfl, ⟨_, _, _, _, _, hm⟩, make_id hm⟩
  · cases h; exact Or.inl ⟨rfl, rfl⟩

/-- The triangles present before loading are kept, the new ones are constructed and numbered from
zero. -/
structure LoadInv (old : List (TriangleGround α)) (s : LoadState α) : Prop where
  ex : ∃ new, s.triangles = old ++ new ∧ new.length = s.elements ∧ (∀ t ∈ new, t.Constructed) ∧
    ∀ (i : Nat) t, new[i]? = some t → t.id = (i : Int)

theorem LoadInv.step {old : List (TriangleGround α)} {s s' : LoadState α} (h : LoadInv old s)
    (hs : StepOk s s') : LoadInv old s' := by
  obtain ⟨new, h1, h2, h3, h4⟩ := h.ex
  rcases hs with ⟨e1, e2⟩ | ⟨t, e1, e2, e3, e4⟩
  · exact ⟨new, e1 ▸ h1, e2 ▸ h2, h3, h4⟩
  · refine ⟨new ++ [t], by rw [e1, h1, List.append_assoc], by simp [h2, e2], ?_, ?_⟩
    · intro u hu
      rcases List.mem_append.mp hu with hu | hu
      · exact h3 u hu
      · simp at hu; subst hu; exact e3
    · intro i u hu
      rw [List.getElem?_append] at hu
      split at hu
      · exact h4 i u hu
      next hi =>
        by_cases h0 : i - new.length = 0
        · rw [h0] at hu
          simp at hu; subst hu
          rw [e4, ← h2]; congr 1; omega
        · rw [List.getElem?_eq_none] at hu
          · simp at hu
          · simp; omega

theorem lineLoop_inv {step : LoadState α → List Char → Res (LoadState α)}
    (hstep : ∀ s l s', step s l = .ok s' → StepOk s s') {old : List (TriangleGround α)}
    (ls : List (List Char)) (s : LoadState α) (h : LoadInv old s) :
    (∀ s' u, lineLoop step ls s = .ok s' u → LoadInv old s') ∧
    (∀ s' m, lineLoop step ls s = .throw s' m → LoadInv old s') := by
  induction ls generalizing s with
  | nil =>
    refine ⟨?_, ?_⟩
    · intro s' u he; cases he; exact h
    · intro s' m he; cases he
  | cons l ls ih =>
    simp only [lineLoop]
    cases hs : step s l with
    | ok s1 => exact ih s1 (h.step (hstep s l s1 hs))
    | throw m =>
      refine ⟨?_, ?_⟩
      · intro s' u he; cases he
      · intro s' m' he; cases he; exact h
    | ub w =>
      refine ⟨?_, ?_⟩
      · intro s' u he; cases he
      · intro s' m' he; cases he

theorem loadInv_init (m : Mesh α) : LoadInv m.triangles ⟨[], m.triangles, 0, false, false⟩ :=
  ⟨[], by simp, rfl, by simp, by simp⟩

/-- Unfolding of a load that gets as far as reading lines. -/
theorem loadWith_eq {step : LoadState α → List Char → Res (LoadState α)} {ext : List Char}
    {m : Mesh α} {path stem : List Char} {lines : List (List Char)} (hp : path = stem ++ ext)
    (he : ext.length = 4) :
    loadWith step ext m path (some lines) =
      match lineLoop step lines ⟨[], m.triangles, 0, false, false⟩ with
      | .ok s _ => loadFinish m s
      | .throw s e => .throw { m with triangles := s.triangles } e
      | .ub w => .ub w := by
  subst hp
  have hx : extension (stem ++ ext) = .ok ext := by
    unfold extension
    rw [if_neg (by simp; omega)]
    simp [he]
  unfold loadWith
  rw [hx]
  simp only [ne_eq, not_true_eq_false, if_false]
  rfl

/-- A successful load comes from a successful run over the lines. -/
theorem loadWith_ok {step : LoadState α → List Char → Res (LoadState α)} {ext : List Char}
    {m m' : Mesh α} {path : List Char} {file : Option (List (List Char))} {b : Bool}
    (h : loadWith step ext m path file = .ok m' b) :
    ∃ lines s u, file = some lines ∧
      lineLoop step lines ⟨[], m.triangles, 0, false, false⟩ = .ok s u ∧
      s.triangles.length = s.elements ∧ s.triangles ≠ [] ∧
      m' = { m with triangles := s.triangles }.buildAABBtree ∧ b = true := by
  unfold loadWith at h
  split at h
  · cases h
  · cases h
  split at h
  · cases h
  split at h
  · cases h
  split at h
  next hl =>
    rename_i lines _ s u
    unfold loadFinish at h
    simp only at h
    split at h
    · cases h
    split at h
    · cases h
    next h1 h2 =>
      cases h
      exact ⟨lines, s, u, rfl, hl, by simpa using h1, by simpa using h2, rfl, rfl⟩
  · cases h
  · cases h

/-- Loading into an empty mesh gives a consistent mesh. -/
theorem loadWith_consistent {step : LoadState α → List Char → Res (LoadState α)} {ext : List Char}
    (hstep : ∀ s l s', step s l = .ok s' → StepOk s s')
    {m m' : Mesh α} {path : List Char} {file : Option (List (List Char))} {b : Bool}
    (hm : m.triangles = []) (h : loadWith step ext m path file = .ok m' b) :
    m'.Consistent ∧ m'.triangles ≠ [] := by
  obtain ⟨lines, s, u, -, hl, h1, h2, rfl, -⟩ := loadWith_ok h
  obtain ⟨new, e1, e2, e3, e4⟩ := ((lineLoop_inv hstep lines _ (loadInv_init m)).1 s u hl).ex
  rw [hm] at e1
  simp at e1
  refine ⟨⟨rfl, ?_, ?_⟩, h2⟩
  · intro t ht; exact e3 t (e1 ▸ ht)
  · intro i t ht; exact e4 i t (e1 ▸ ht)

theorem loadRdf_consistent {np : NumParse α} {m m' : Mesh α} {path : List Char}
    {file : Option (List (List Char))} {pose : Affine α} {b : Bool} (hm : m.triangles = [])
    (h : loadRdf np m path file pose = .ok m' b) : m'.Consistent ∧ m'.triangles ≠ [] :=
  loadWith_consistent (fun _ _ _ => rdfLine_step) hm h

theorem loadObj_consistent {np : NumParse α} {m m' : Mesh α} {path : List Char}
    {file : Option (List (List Char))} {friction : α} {pose : Affine α} {b : Bool}
    (hm : m.triangles = []) (h : loadObj np m path file friction pose = .ok m' b) :
    m'.Consistent ∧ m'.triangles ≠ [] :=
  loadWith_consistent (fun _ _ _ => objLine_step) hm h

end Mesh
end Enve
