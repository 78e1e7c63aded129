import Verif.Spec.History

/-! # Shell: resizing, rib loops, invariants of reachable shells -/

namespace Enve
namespace Shell
open Scalar
variable {α : Type} [Scalar α]

/-! ## Resizing -/

/-- What a rib of the shell looks like: on the shell's y axis, with its own number. -/
def RibShape (ribW : α) (i : Nat) (r : Rib α) : Prop :=
  ∃ radius y angle, r = Rib.make i radius y ribW angle

theorem resizeLoop_ok {shape : Shape α} {ribW : α} {k i : Nat} {y : α} {acc ribs : List (Rib α)}
    {u : Unit} (h : resizeLoop shape ribW k i y acc = .ok ribs u) :
    ∃ new : List (Rib α), ribs = acc ++ new ∧ new.length = k ∧
      ∀ (j : Nat) r, new[j]? = some r → RibShape ribW (i + j) r := by
  induction k generalizing i y acc with
  | zero =>
    simp only [resizeLoop, MRes.ok.injEq] at h
    exact ⟨[], by simp [h.1], rfl, by simp⟩
  | succ k ih =>
    rw [resizeLoop] at h
    split at h
    · rename_i r hr
      obtain ⟨new, e1, e2, e3⟩ := ih h
      refine ⟨r :: new, by simp [e1], by simp [e2], ?_⟩
      intro j r' hj
      cases j with
      | zero =>
        simp only [List.getElem?_cons_zero, Option.some.injEq] at hj
        subst hj
        simp only [Res.bind_eq_ok] at hr
        obtain ⟨rad, -, a, -, _, -, _, -, _, -, hr⟩ := hr
        exact ⟨rad, _, a, (Res.ok.inj hr).symm⟩
      | succ j =>
        simp only [List.getElem?_cons_succ] at hj
        have := e3 j r' hj
        rwa [Nat.add_assoc, Nat.add_comm 1 j] at this
    · cases h
    · cases h

theorem resizeLoop_throw {shape : Shape α} {ribW : α} {k i : Nat} {y : α} {acc ribs : List (Rib α)}
    {e : String} (h : resizeLoop shape ribW k i y acc = .throw ribs e) :
    ∃ new : List (Rib α), ribs = acc ++ new ∧ new.length < k ∧
      ∀ (j : Nat) r, new[j]? = some r → RibShape ribW (i + j) r := by
  induction k generalizing i y acc with
  | zero => simp [resizeLoop] at h
  | succ k ih =>
    rw [resizeLoop] at h
    split at h
    · rename_i r hr
      obtain ⟨new, e1, e2, e3⟩ := ih h
      refine ⟨r :: new, by simp [e1], by simp [e2], ?_⟩
      intro j r' hj
      cases j with
      | zero =>
        simp only [List.getElem?_cons_zero, Option.some.injEq] at hj
        subst hj
        simp only [Res.bind_eq_ok] at hr
        obtain ⟨rad, -, a, -, _, -, _, -, _, -, hr⟩ := hr
        exact ⟨rad, _, a, (Res.ok.inj hr).symm⟩
      | succ j =>
        simp only [List.getElem?_cons_succ] at hj
        have := e3 j r' hj
        rwa [Nat.add_assoc, Nat.add_comm 1 j] at this
    · simp only [MRes.throw.injEq] at h
      exact ⟨[], by simp [h.1], by simp, by simp⟩
    · cases h

/-- The steps of the loop never have undefined behaviour. -/
theorem resizeLoop_not_ub {shape : Shape α} {ribW : α} {k i : Nat} {y : α} {acc : List (Rib α)}
    {w : String} : resizeLoop shape ribW k i y acc ≠ .ub w := by
  induction k generalizing i y acc with
  | zero => simp [resizeLoop]
  | succ k ih =>
    rw [resizeLoop]
    split
    · exact ih
    · simp
    · rename_i w' hr
      exfalso
      revert hr
      simp only [Shape.surfaceAngle, Shape.surfaceDerivative, Shape.surfaceRadius, Res.assert]
      repeat' (first | split | simp)

/-- The state after `resize`. -/
structure Resized (s s' : Shell α) (n : Nat) : Prop where
  pose : s'.pose = s.pose
  shape : s'.shape = s.shape
  bbox : s'.bbox = s.bbox
  cands : s'.cands = List.replicate n []
  out_size : s'.out.size = 0
  out_cap : s'.out.cap = Nat.max s.out.cap 200
  ribs : ∃ ribW, ∀ (j : Nat) r, s'.ribs[j]? = some r → RibShape ribW j r

omit [Scalar α] in
theorem clearReserve_size (v : RecVec α) (fresh : Nat → Output α) :
    (v.clearReserve fresh).size = 0 ∧ (v.clearReserve fresh).cap = Nat.max v.cap 200 := by
  unfold RecVec.clearReserve
  split
  · refine ⟨rfl, ?_⟩; show 200 = max v.cap 200; omega
  · refine ⟨rfl, ?_⟩; show v.cap = max v.cap 200; omega

theorem resize_ok {fresh : Nat → Output α} {s s' : Shell α} {n : Nat} {u : Unit}
    (h : s.resize fresh n = .ok s' u) : Resized s s' n ∧ s'.ribs.length = n ∧ n ≠ 0 := by
  unfold resize at h
  split at h
  · cases h
  · rename_i hn
    dsimp only at h
    have hc := clearReserve_size s.out fresh
    split at h
    · rename_i ribs _ hl
      obtain ⟨new, e1, e2, e3⟩ := resizeLoop_ok hl
      simp only [List.nil_append] at e1
      subst e1
      cases h
      refine ⟨⟨rfl, rfl, rfl, rfl, hc.1, hc.2,
        two *. s.shape.surfaceMaxWidth /. ofNat n, fun j r hj => ?_⟩, e2, hn⟩
      simpa using e3 j r hj
    · cases h
    · cases h

theorem resize_throw {fresh : Nat → Output α} {s s' : Shell α} {n : Nat} {e : String}
    (h : s.resize fresh n = .throw s' e) :
    (n = 0 ∧ s' = s) ∨ (Resized s s' n ∧ s'.ribs.length < n) := by
  unfold resize at h
  split at h
  · rename_i hn
    cases h
    exact .inl ⟨hn, rfl⟩
  · rename_i hn
    dsimp only at h
    have hc := clearReserve_size s.out fresh
    split at h
    · cases h
    · rename_i ribs _ hl
      obtain ⟨new, e1, e2, e3⟩ := resizeLoop_throw hl
      simp only [List.nil_append] at e1
      subst e1
      cases h
      refine .inr ⟨⟨rfl, rfl, rfl, rfl, hc.1, hc.2,
        two *. s.shape.surfaceMaxWidth /. ofNat n, fun j r hj => ?_⟩, e2⟩
      simpa using e3 j r hj
    · cases h

theorem resize_not_ub {fresh : Nat → Output α} {s : Shell α} {n : Nat} {w : String} :
    s.resize fresh n ≠ .ub w := by
  unfold resize
  split
  · simp
  · dsimp only
    split
    · simp
    · simp
    · rename_i hl; exact absurd hl resizeLoop_not_ub

theorem make_ok {fresh : Nat → Output α} {n : Nat} {rx mx ry my ly : α} {s : Shell α}
    (h : make fresh n rx mx ry my ly = .ok s) :
    ∃ s0 s1 : Shell α, s0 = ⟨Affine.id, ⟨rx, mx, ry, my, ly⟩, Box.default, [], RecVec.init fresh, []⟩ ∧
      s0.resize fresh n = .ok s1 () ∧ s = s1.updateBBox := by
  unfold make at h
  dsimp only at h
  split at h
  · rename_i s1 u hr
    exact ⟨_, s1, rfl, hr, (Res.ok.inj h).symm⟩
  · cases h
  · cases h

/-! ## Loops over the ribs -/

omit [Scalar α] in
theorem accessible_set (pol : Policy) (v : RecVec α) (i j : Nat) (o : Output α) :
    (v.set i o).accessible pol j = v.accessible pol j := rfl

omit [Scalar α] in
/-- What a loop over the ribs that returns did: all records were accessible, every rib was evaluated
successfully and its record stored at its place, all other records are untouched; the flag is the
fold of the ribs' flags. -/
theorem ribLoop_ok {pol : Policy} {comb : Bool → Bool → Bool}
    {f : Nat → Rib α → Res (Bool × Output α)} {ribs : List (Rib α)} {i : Nat} {out out' : RecVec α}
    {b b' : Bool} (h : ribLoop pol comb f ribs i out b = .ok out' b') :
    ∃ res : List (Bool × Output α), res.length = ribs.length ∧
      (∀ j r, ribs[j]? = some r → out.accessible pol (i + j) = true) ∧
      (∀ j r c, ribs[j]? = some r → res[j]? = some c → f (i + j) r = .ok c ∧ out'.mem (i + j) = c.2) ∧
      (∀ j, j < i ∨ i + ribs.length ≤ j → out'.mem j = out.mem j) ∧
      out'.size = out.size ∧ out'.cap = out.cap ∧
      b' = res.foldl (fun b c => comb c.1 b) b := by
  induction ribs generalizing i out b with
  | nil =>
    simp only [ribLoop, MRes.ok.injEq] at h
    obtain ⟨rfl, rfl⟩ := h
    exact ⟨[], rfl, by simp, by simp, by simp, rfl, rfl, rfl⟩
  | cons r rs ih =>
    rw [ribLoop] at h
    split at h
    · cases h
    · rename_i ha
      simp only [Bool.not_eq_true', Bool.not_eq_false] at ha
      split at h
      · rename_i c o hf
        obtain ⟨res, h1, h2, h3, h4, h5, h6, h7⟩ := ih h
        refine ⟨(c, o) :: res, by simp [h1], ?_, ?_, ?_, h5, h6, by simpa using h7⟩
        · intro j r' hj
          cases j with
          | zero => simpa using ha
          | succ j =>
            simp only [List.getElem?_cons_succ] at hj
            have := h2 j r' hj
            rw [accessible_set] at this
            rwa [show i + (j + 1) = i + 1 + j by omega]
        · intro j r' c' hj hc
          cases j with
          | zero =>
            simp only [List.getElem?_cons_zero, Option.some.injEq] at hj hc
            subst hj hc
            refine ⟨hf, ?_⟩
            rw [Nat.add_zero, h4 i (.inl (by omega))]
            simp [RecVec.set]
          | succ j =>
            simp only [List.getElem?_cons_succ] at hj hc
            rw [show i + (j + 1) = i + 1 + j by omega]
            exact h3 j r' c' hj hc
        · intro j hj
          rw [h4 j (by simp at hj; omega)]
          simp only [RecVec.set]
          rw [if_neg (by simp at hj; omega)]
      · cases h
      · cases h

omit [Scalar α] in
/-- If all records are accessible and all evaluations succeed, the loop returns. -/
theorem ribLoop_total {pol : Policy} {comb : Bool → Bool → Bool}
    {f : Nat → Rib α → Res (Bool × Output α)} {ribs : List (Rib α)} {i : Nat} {out : RecVec α}
    {b : Bool} (ha : ∀ j, j < ribs.length → out.accessible pol (i + j) = true)
    (hf : ∀ j r, ribs[j]? = some r → ∃ c, f (i + j) r = .ok c) :
    ∃ out' b', ribLoop pol comb f ribs i out b = .ok out' b' := by
  induction ribs generalizing i out b with
  | nil => exact ⟨out, b, rfl⟩
  | cons r rs ih =>
    obtain ⟨⟨c, o⟩, hc⟩ := hf 0 r rfl
    have ha0 : out.accessible pol i = true := by simpa using ha 0 (by simp)
    rw [ribLoop]
    rw [Nat.add_zero] at hc
    simp only [ha0, Bool.not_true, Bool.false_eq_true, if_false, hc]
    apply ih
    · intro j hj
      rw [accessible_set]
      rw [show i + 1 + j = i + (j + 1) by omega]
      exact ha (j + 1) (by simpa using hj)
    · intro j r' hj
      rw [show i + 1 + j = i + (j + 1) by omega]
      exact hf (j + 1) r' (by simpa using hj)

omit [Scalar α] in
/-- A loop that throws does not change size and capacity of the record vector. -/
theorem ribLoop_throw {pol : Policy} {comb : Bool → Bool → Bool}
    {f : Nat → Rib α → Res (Bool × Output α)} {ribs : List (Rib α)} {i : Nat} {out out' : RecVec α}
    {b : Bool} {e : String} (h : ribLoop pol comb f ribs i out b = .throw out' e) :
    out'.size = out.size ∧ out'.cap = out.cap := by
  induction ribs generalizing i out b with
  | nil => simp [ribLoop] at h
  | cons r rs ih =>
    rw [ribLoop] at h
    split at h
    · cases h
    · split at h
      · have := ih h
        exact this
      · cases h; exact ⟨rfl, rfl⟩
      · cases h

omit [Scalar α] in
/-- Loops over the same ribs with the same evaluation agree, whatever the records held before. -/
theorem ribLoop_congr {pol : Policy} {comb : Bool → Bool → Bool}
    {f g : Nat → Rib α → Res (Bool × Output α)} {ribs : List (Rib α)} {i : Nat} {out out' : RecVec α}
    {b : Bool} (hs : out.size = out'.size) (hc : out.cap = out'.cap)
    (hfg : ∀ j r, ribs[j]? = some r → f (i + j) r = g (i + j) r) :
    (∃ o o' c, ribLoop pol comb f ribs i out b = .ok o c ∧ ribLoop pol comb g ribs i out' b = .ok o' c ∧
      ∀ j, i ≤ j → j < i + ribs.length → o.mem j = o'.mem j) ∨
    (∃ o o' e, ribLoop pol comb f ribs i out b = .throw o e ∧
      ribLoop pol comb g ribs i out' b = .throw o' e) ∨
    (∃ w, ribLoop pol comb f ribs i out b = .ub w ∧ ribLoop pol comb g ribs i out' b = .ub w) := by
  induction ribs generalizing i out out' b with
  | nil => exact .inl ⟨out, out', b, rfl, rfl, by simp; omega⟩
  | cons r rs ih =>
    have hacc : out.accessible pol i = out'.accessible pol i := by
      simp [RecVec.accessible, hs, hc]
    have hf0 := hfg 0 r rfl
    rw [Nat.add_zero] at hf0
    rw [ribLoop, ribLoop, ← hacc, ← hf0]
    cases ha : out.accessible pol i
    · exact .inr (.inr ⟨_, rfl, rfl⟩)
    · simp only [Bool.not_true, Bool.false_eq_true, if_false]
      cases hf : f i r with
      | ok c =>
        obtain ⟨c, o⟩ := c
        dsimp only
        have := ih (i := i + 1) (out := out.set i o) (out' := out'.set i o) (b := comb c b) hs hc (by
          intro j r' hj
          rw [show i + 1 + j = i + (j + 1) by omega]
          exact hfg (j + 1) r' (by simpa using hj))
        rcases this with ⟨o1, o2, c', h1, h2, h3⟩ | h | h
        · refine .inl ⟨o1, o2, c', h1, h2, fun j hj hj' => ?_⟩
          by_cases e : j = i
          · obtain ⟨_, -, -, -, m1, -⟩ := ribLoop_ok h1
            obtain ⟨_, -, -, -, m2, -⟩ := ribLoop_ok h2
            rw [m1 j (.inl (by omega)), m2 j (.inl (by omega))]
            simp [RecVec.set, e]
          · simp only [List.length_cons] at hj'
            exact h3 j (by omega) (by omega)
        · exact .inr (.inl h)
        · exact .inr (.inr h)
      | throw m => exact .inr (.inl ⟨_, _, _, rfl, rfl⟩)
      | ub w => exact .inr (.inr ⟨_, rfl, rfl⟩)

omit [Scalar α] in
theorem ribLoop_fcongr {pol : Policy} {comb : Bool → Bool → Bool}
    {f g : Nat → Rib α → Res (Bool × Output α)} {ribs : List (Rib α)} {i : Nat} {out : RecVec α}
    {b : Bool} (hfg : ∀ j r, ribs[j]? = some r → f (i + j) r = g (i + j) r) :
    ribLoop pol comb f ribs i out b = ribLoop pol comb g ribs i out b := by
  induction ribs generalizing i out b with
  | nil => rfl
  | cons r rs ih =>
    have h0 := hfg 0 r rfl
    rw [Nat.add_zero] at h0
    rw [ribLoop, ribLoop, h0]
    split
    · rfl
    · split
      · apply ih
        intro j r' hj
        rw [show i + 1 + j = i + (j + 1) by omega]
        exact hfg (j + 1) r' (by simpa using hj)
      · rfl
      · rfl

/-- Whether `setup` refines the candidate lists, `shell.cc:468`. -/
def refines (method : String) (loc : List (TriangleGround α)) : Bool :=
  decide (method = "geometric") && decide (loc.length > 3)

/-- The candidates of rib `r` among the local triangles. -/
def ribCandidates (pose : Affine α) (method : String) (loc : List (TriangleGround α)) (r : Rib α) :
    List (TriangleGround α) :=
  loc.filter (isCandidate (Plane.normalize ⟨pose.trans, pose.linear.c1⟩) (refines method loc) r.center.y)

/-- Setup on a mesh with local triangles: every rib is evaluated on its candidates. -/
theorem setupMesh_some {pol : Policy} {s : Shell α} {ground : Mesh α} {pose : Affine α}
    {method : String} {loc : List (TriangleGround α)} (hc : s.ribs.length ≤ s.cands.length)
    (hi : ground.intersection (s.transform pose).updateBBox.bbox = .ok loc) (hne : loc ≠ []) :
    s.setupMesh pol ground pose method =
      withOut { (s.transform pose).updateBBox with
        cands := s.ribs.map (ribCandidates pose method loc) ++ s.cands.drop s.ribs.length }
      (ribLoop pol (fun c b => c || b)
        (fun _ r => r.envelopMesh (ribCandidates pose method loc r) pose method) s.ribs 0 s.out
        false) := by
  have hlen : ¬ loc.length < 1 := by
    cases loc with
    | nil => exact absurd rfl hne
    | cons _ _ => simp
  have hle : ¬ (s.transform pose).updateBBox.cands.length < (s.transform pose).updateBBox.ribs.length :=
    not_lt.2 hc
  unfold setupMesh
  dsimp only
  rw [hi]
  dsimp only
  rw [if_neg hlen]
  unfold refineIntersection
  rw [if_neg hle]
  dsimp only
  congr 1
  apply ribLoop_fcongr
  intro j r hj
  have hjl : j < s.ribs.length := (List.getElem?_eq_some_iff.1 hj).1
  have hj' : s.ribs[j]? = some r := hj
  rw [Nat.zero_add]
  unfold candidate
  dsimp only
  rw [List.getElem?_append_left (by rw [List.length_map]; exact hjl), List.getElem?_map, hj]
  rfl

/-- Setup on a mesh without local triangles: every rib gets the no-contact record. -/
theorem setupMesh_none {pol : Policy} {s : Shell α} {ground : Mesh α} {pose : Affine α}
    {method : String} (hi : ground.intersection (s.transform pose).updateBBox.bbox = .ok []) :
    s.setupMesh pol ground pose method =
      withOut (s.transform pose).updateBBox
      (ribLoop pol (fun _ _ => false) (fun _ r => .ok (false, r.noContact pose)) s.ribs 0 s.out
        false) := by
  unfold setupMesh
  dsimp only
  rw [hi]
  rfl

/-- Setup on a flat ground. -/
theorem setupFlat_eq {pol : Policy} {s : Shell α} {ground : Flat α} {pose : Affine α}
    {method : String} : s.setupFlat pol ground pose method =
      withOut (s.transform pose).updateBBox
      (ribLoop pol (fun c _ => c) (fun _ r => r.envelopFlat ground pose method) s.ribs 0 s.out
        false) := rfl

/-! ## Invariants of reachable shells -/

/-- What is true of every reachable shell. -/
structure Inv (s : Shell α) : Prop where
  out_size : s.out.size = 0
  out_cap : s.out.cap = 200
  cands : s.ribs.length ≤ s.cands.length
  ribs : ∃ ribW, ∀ (j : Nat) r, s.ribs[j]? = some r → RibShape ribW j r
  bbox_id : s.bbox.id = 0
  bbox_pos : s.bbox.pos = 0

theorem Resized.inv {s s' : Shell α} {n : Nat} (h : Resized s s' n) (hc : s.out.cap ≤ 200)
    (hn : s'.ribs.length ≤ n)
    (hb : s.bbox.id = 0) (hb' : s.bbox.pos = 0) : s'.Inv :=
  ⟨h.out_size, by rw [h.out_cap]; show max s.out.cap 200 = 200; omega,
    by rw [h.cands]; simpa using hn, h.ribs, by rw [h.bbox, hb], by rw [h.bbox, hb']⟩

theorem refineIntersection_ok {s s' : Shell α} {g : List (TriangleGround α)} {b : Bool}
    (h : s.refineIntersection g b = .ok s') :
    s.ribs.length ≤ s.cands.length ∧ s' =
      { s with cands := (s.ribs.map fun r => g.filter (isCandidate s.midPlane b r.center.y)) ++
          s.cands.drop s.ribs.length } := by
  unfold refineIntersection at h
  split at h
  · cases h
  · exact ⟨by omega, (Res.ok.inj h).symm⟩

/-- How the shell left by a mesh setup relates to the one before it. -/
structure SetupRel (s s' : Shell α) (p : Affine α) : Prop where
  pose : s'.pose = p
  shape : s'.shape = s.shape
  ribs : s'.ribs = s.ribs
  bbox : s'.bbox = (s.transform p).updateBBox.bbox
  cands : s'.cands.length = s.cands.length
  size : s'.out.size = s.out.size
  cap : s'.out.cap = s.out.cap

theorem setupFlat_rel {pol : Policy} {s s' : Shell α} {ground : Flat α} {pose : Affine α}
    {method : String} (h : (∃ b, s.setupFlat pol ground pose method = .ok s' b) ∨
      ∃ e, s.setupFlat pol ground pose method = .throw s' e) : SetupRel s s' pose := by
  rcases h with ⟨b, h⟩ | ⟨e, h⟩ <;> unfold setupFlat withOut at h <;> dsimp only at h <;> split at h
  · rename_i hl
    obtain ⟨_, -, -, -, -, h1, h2, -⟩ := ribLoop_ok hl
    cases h
    exact ⟨rfl, rfl, rfl, rfl, rfl, h1, h2⟩
  · cases h
  · cases h
  · cases h
  · rename_i hl
    obtain ⟨h1, h2⟩ := ribLoop_throw hl
    cases h
    exact ⟨rfl, rfl, rfl, rfl, rfl, h1, h2⟩
  · cases h

theorem setupMesh_rel {pol : Policy} {s s' : Shell α} {ground : Mesh α} {pose : Affine α}
    {method : String} (h : (∃ b, s.setupMesh pol ground pose method = .ok s' b) ∨
      ∃ e, s.setupMesh pol ground pose method = .throw s' e) : SetupRel s s' pose := by
  have key : ∀ (sc : Shell α) (comb : Bool → Bool → Bool) (f : Nat → Rib α → Res (Bool × Output α)),
      sc.pose = pose → sc.shape = s.shape → sc.ribs = s.ribs →
      sc.bbox = (s.transform pose).updateBBox.bbox → sc.cands.length = s.cands.length →
      sc.out = s.out →
      ((∃ b, withOut sc (ribLoop pol comb f sc.ribs 0 sc.out false) = .ok s' b) ∨
        ∃ e, withOut sc (ribLoop pol comb f sc.ribs 0 sc.out false) = .throw s' e) →
      SetupRel s s' pose := by
    intro sc comb f e1 e2 e3 e4 e5 e6 h
    rcases h with ⟨b, h⟩ | ⟨e, h⟩ <;> unfold withOut at h <;> split at h
    · rename_i hl
      obtain ⟨_, -, -, -, -, h1, h2, -⟩ := ribLoop_ok hl
      cases h
      exact ⟨e1, e2, e3, e4, e5, by rw [h1, e6], by rw [h2, e6]⟩
    · cases h
    · cases h
    · cases h
    · rename_i hl
      obtain ⟨h1, h2⟩ := ribLoop_throw hl
      cases h
      exact ⟨e1, e2, e3, e4, e5, by rw [h1, e6], by rw [h2, e6]⟩
    · cases h
  unfold setupMesh at h
  dsimp only at h
  cases hi : ground.intersection (s.transform pose).updateBBox.bbox with
  | throw m =>
    simp only [hi] at h
    rcases h with ⟨b, h⟩ | ⟨e, h⟩
    · cases h
    · cases h; exact ⟨rfl, rfl, rfl, rfl, rfl, rfl, rfl⟩
  | ub w => simp [hi] at h
  | ok loc =>
    simp only [hi] at h
    split at h
    · exact key (s.transform pose).updateBBox _ _ rfl rfl rfl rfl rfl rfl h
    · cases hr : (s.transform pose).updateBBox.refineIntersection loc
        (decide (method = "geometric") && decide (loc.length > 3)) with
      | throw m =>
        unfold refineIntersection at hr
        split at hr <;> cases hr
      | ub w => simp [hr] at h
      | ok sc =>
        simp only [hr] at h
        obtain ⟨hle, rfl⟩ := refineIntersection_ok hr
        refine key _ _ _ ?_ ?_ ?_ ?_ ?_ ?_ h
        · rfl
        · rfl
        · rfl
        · rfl
        · simp only [List.length_append, List.length_map, List.length_drop]
          have : (s.transform pose).updateBBox.cands.length = s.cands.length := rfl
          omega
        · rfl

theorem SetupRel.inv {s s' : Shell α} {pose : Affine α} (h : SetupRel s s' pose) (hi : s.Inv) :
    s'.Inv :=
  ⟨by rw [h.size, hi.out_size], by rw [h.cap, hi.out_cap], by rw [h.ribs, h.cands]; exact hi.cands,
    by rw [h.ribs]; exact hi.ribs, by rw [h.bbox]; exact hi.bbox_id,
    by rw [h.bbox]; exact hi.bbox_pos⟩

theorem Reachable.inv {pol : Policy} {s : Shell α} (h : s.Reachable pol) : s.Inv := by
  induction h with
  | make h =>
    obtain ⟨s0, s1, rfl, hr, rfl⟩ := make_ok h
    obtain ⟨h1, h2, -⟩ := resize_ok hr
    obtain ⟨a, b, c, d, e, f⟩ := h1.inv (by simp [RecVec.init]) h2.le rfl rfl
    exact ⟨a, b, c, d, e, f⟩
  | resize _ h ih =>
    rcases h with h | ⟨e, h⟩
    · obtain ⟨h1, h2, -⟩ := resize_ok h
      exact h1.inv ih.out_cap.le h2.le ih.bbox_id ih.bbox_pos
    · rcases resize_throw h with ⟨-, rfl⟩ | ⟨h1, h2⟩
      · exact ih
      · exact h1.inv ih.out_cap.le h2.le ih.bbox_id ih.bbox_pos
  | translate v _ ih => exact ⟨ih.1, ih.2, ih.3, ih.4, ih.5, ih.6⟩
  | rotate a v _ ih => exact ⟨ih.1, ih.2, ih.3, ih.4, ih.5, ih.6⟩
  | transform p _ ih => exact ⟨ih.1, ih.2, ih.3, ih.4, ih.5, ih.6⟩
  | updateBBox _ ih => exact ⟨ih.1, ih.2, ih.3, ih.4, ih.5, ih.6⟩
  | setupMesh _ h ih =>
    exact (setupMesh_rel (h.imp (fun h => ⟨_, h⟩) id)).inv ih
  | setupFlat _ h ih =>
    exact (setupFlat_rel (h.imp (fun h => ⟨_, h⟩) id)).inv ih

end Shell
end Enve
