import Verif.Model.Sfun
import Verif.Props.FrameProps

/-! # The S-function interface (C54) -/

namespace Enve
open Scalar Spec
variable {α : Type} [Scalar α]

/-- What slot `i` of the rib arrays of the bus holds: the 16 entries of the affine matrix, depth and
friction. -/
def OutputBus.slot (bus : OutputBus α) (i : Nat) : Option (List α × α × α) :=
  match bus.ribsAffine[i]?, bus.ribsRho[i]?, bus.ribsFriction[i]? with
  | some a, some d, some f => some (a, d, f)
  | _, _, _ => none

/-- Entry `(r, c)` of the 4x4 matrix of an affine transformation (last row `0 0 0 1`). -/
def Spec.entry (p : Affine α) : Nat → Nat → α
  | 0, 0 => p.linear.c0.x | 1, 0 => p.linear.c0.y | 2, 0 => p.linear.c0.z
  | 0, 1 => p.linear.c1.x | 1, 1 => p.linear.c1.y | 2, 1 => p.linear.c1.z
  | 0, 2 => p.linear.c2.x | 1, 2 => p.linear.c2.y | 2, 2 => p.linear.c2.z
  | 0, 3 => p.trans.x | 1, 3 => p.trans.y | 2, 3 => p.trans.z
  | 3, 3 => one | _, _ => zero

/-- The list holds the 4x4 matrix column by column. -/
def Spec.HoldsMatrix (l : List α) (p : Affine α) : Prop :=
  l.length = 16 ∧ ∀ r < 4, ∀ c < 4, l[r + 4 * c]? = some (entry p r c)

/-- The bus mirrors the shell. -/
structure Spec.Mirrors (pol : Policy) (s : Shell α) (bus : OutputBus α) : Prop where
  lengths : bus.ribsAffine.length = 20 ∧ bus.ribsRho.length = 20 ∧ bus.ribsFriction.length = 20
  shell : ∃ f, s.contactPointAffine pol = .ok f ∧ HoldsMatrix bus.shellAffine f
  shellRho : s.contactDepth pol = .ok bus.shellRho
  shellFriction : s.contactFriction pol = .ok bus.shellFriction
  used : ∀ i < 20, i < s.size → ∃ f d mu l, s.contactPointAffineAt pol i = .ok f ∧
    s.contactDepthAt pol i = .ok d ∧ s.contactFrictionAt pol i = .ok mu ∧
    bus.slot i = some (l, d, mu) ∧ HoldsMatrix l f
  unused : ∀ i < 20, s.size ≤ i → bus.slot i = some (List.replicate 16 Scalar.nan, Scalar.nan, Scalar.nan)

theorem Sfun.columns_holds (p : Affine α) : HoldsMatrix (Sfun.columns p) p := by
  refine ⟨rfl, fun r hr c hc => ?_⟩
  have : r = 0 ∨ r = 1 ∨ r = 2 ∨ r = 3 := by omega
  have : c = 0 ∨ c = 1 ∨ c = 2 ∨ c = 3 := by omega
  rcases ‹r = 0 ∨ _› with rfl | rfl | rfl | rfl <;> rcases ‹c = 0 ∨ _› with rfl | rfl | rfl | rfl <;> rfl

theorem Sfun.slots_ok {pol : Policy} {s : Shell α} {k i : Nat} {rs : List (List α × α × α)}
    (h : Sfun.slots pol s k i = .ok rs) : rs.length = k ∧ ∀ j < k, ∃ a, Sfun.ribSlot pol s (i + j) = .ok a ∧
      rs[j]? = some a := by
  induction k generalizing i rs with
  | zero => cases h; exact ⟨rfl, fun j hj => by omega⟩
  | succ k ih =>
    rw [Sfun.slots, Res.bind_eq_ok] at h
    obtain ⟨a, ha, h⟩ := h
    rw [Res.bind_eq_ok] at h
    obtain ⟨as, has, h⟩ := h
    have h := Res.ok.inj h
    obtain ⟨h1, h2⟩ := ih has
    rw [← h]
    refine ⟨by simp [h1], fun j hj => ?_⟩
    cases j with
    | zero => exact ⟨a, ha, rfl⟩
    | succ j =>
      obtain ⟨b, hb, hb'⟩ := h2 j (by omega)
      exact ⟨b, by rw [← hb]; congr 1; omega, by simpa using hb'⟩

/-- Filling the bus succeeds only with a bus that mirrors the shell. -/
theorem Sfun.fillBus_mirrors {pol : Policy} {s : Shell α} {inMesh : Bool} {bus : OutputBus α}
    (h : Sfun.fillBus pol s inMesh = .ok bus) : Mirrors pol s bus ∧ bus.inMesh = inMesh := by
  rw [Sfun.fillBus, Res.bind_eq_ok] at h
  obtain ⟨f, hf, h⟩ := h
  rw [Res.bind_eq_ok] at h
  obtain ⟨d, hd, h⟩ := h
  rw [Res.bind_eq_ok] at h
  obtain ⟨mu, hmu, h⟩ := h
  rw [Res.bind_eq_ok] at h
  obtain ⟨rs, hrs, h⟩ := h
  have h := Res.ok.inj h
  obtain ⟨h1, h2⟩ := Sfun.slots_ok hrs
  have hslot : ∀ i a, rs[i]? = some a → bus.slot i = some a := by
    intro i a ha
    rw [← h]
    simp [OutputBus.slot, ha]
  rw [← h] at hslot ⊢
  refine ⟨⟨?_, ⟨f, hf, Sfun.columns_holds f⟩, hd, hmu, fun i hi hs => ?_, fun i hi hs => ?_⟩, rfl⟩
  · have h1 : rs.length = 20 := h1
    simp [h1]
  · obtain ⟨a, ha, ha'⟩ := h2 i hi
    rw [Nat.zero_add, Sfun.ribSlot, if_pos hs, Res.bind_eq_ok] at ha
    obtain ⟨f, hf, ha⟩ := ha
    rw [Res.bind_eq_ok] at ha
    obtain ⟨d, hd, ha⟩ := ha
    rw [Res.bind_eq_ok] at ha
    obtain ⟨mu, hmu, ha⟩ := ha
    have ha := Res.ok.inj ha
    exact ⟨f, d, mu, _, hf, hd, hmu, by rw [hslot i a ha', ← ha], Sfun.columns_holds f⟩
  · obtain ⟨a, ha, ha'⟩ := h2 i hi
    rw [Nat.zero_add, Sfun.ribSlot, if_neg (by omega)] at ha
    rw [hslot i a ha', ← Res.ok.inj ha]
    rfl

/-- The method selected by the first selector. -/
def Spec.MethodOf (m : α) (name : String) : Prop :=
  ((m ==. zero) = true ∧ name = "geometric") ∨
  ((m ==. zero) = false ∧ (m ==. one) = true ∧ name = "sampling")

/-- **C54** (scalars of any kind).  Whenever `enve_sfun_out` returns, the method selector was 0 or 1 and the
ground selector was 0 or 1, and: the bus mirrors the shell as left by the last setup; with ground selector 0
the mesh is evaluated first, `InMesh` is its result, and the flat ground is evaluated exactly if that result is
`false`; with ground selector 1 only the flat ground is evaluated (and `InMesh` is set). -/
theorem C54_bus {pol : Policy} {mesh : Mesh α} {flat : Flat α} {s s' : Shell α} {hub : Affine α} {method sel : α}
    {bus : OutputBus α} (h : Sfun.out pol mesh flat s hub method sel = .ok s' bus) :
    ∃ name, MethodOf method name ∧ Mirrors pol s' bus ∧
      (((sel ==. zero) = true ∧ bus.inMesh = true ∧ s.setupMesh pol mesh hub name = .ok s' true) ∨
       ((sel ==. zero) = true ∧ bus.inMesh = false ∧ ∃ s1 b, s.setupMesh pol mesh hub name = .ok s1 false ∧
          s1.setupFlat pol flat hub name = .ok s' b) ∨
       ((sel ==. zero) = false ∧ (sel ==. one) = true ∧ bus.inMesh = true ∧
          ∃ b, s.setupFlat pol flat hub name = .ok s' b)) := by
  have hfin : ∀ {s1 : Shell α} {b : Bool}, Sfun.finish pol s1 b = .ok s' bus →
      s1 = s' ∧ Mirrors pol s' bus ∧ bus.inMesh = b := by
    intro s1 b hf
    unfold Sfun.finish at hf
    split at hf
    · rename_i bb hb
      cases hf
      exact ⟨rfl, Sfun.fillBus_mirrors hb⟩
    · cases hf
    · cases hf
  unfold Sfun.out at h
  split at h
  · cases h
  · cases h
  · rename_i name hname
    have hm : MethodOf method name := by
      unfold Sfun.methodName at hname
      split at hname
      · rename_i h0; exact .inl ⟨h0, (Res.ok.inj hname).symm⟩
      · rename_i h0
        split at hname
        · rename_i h1; exact .inr ⟨by simpa using h0, h1, (Res.ok.inj hname).symm⟩
        · cases hname
    refine ⟨name, hm, ?_⟩
    split at h
    · rename_i hsel
      split at h
      · cases h
      · cases h
      · rename_i s1 hs1
        obtain ⟨rfl, h1, h2⟩ := hfin h
        exact ⟨h1, .inl ⟨hsel, h2, hs1⟩⟩
      · rename_i s1 hs1
        split at h
        · cases h
        · cases h
        · rename_i s2 b hs2
          obtain ⟨rfl, h1, h2⟩ := hfin h
          exact ⟨h1, .inr (.inl ⟨hsel, h2, s1, b, hs1, hs2⟩)⟩
    · rename_i hsel
      split at h
      · rename_i hsel1
        split at h
        · cases h
        · cases h
        · rename_i s2 b hs2
          obtain ⟨rfl, h1, h2⟩ := hfin h
          exact ⟨h1, .inr (.inr ⟨by simpa using hsel, hsel1, h2, b, hs2⟩)⟩
      · cases h

/-- C54, selectors: with a method selector other than 0 and 1, or a ground selector other than 0 and 1, an
error is raised and the shell is left as it was. -/
theorem C54_bad_selector {pol : Policy} {mesh : Mesh α} {flat : Flat α} {s : Shell α} {hub : Affine α}
    {method sel : α} (h : ((method ==. zero) = false ∧ (method ==. one) = false) ∨
      ((sel ==. zero) = false ∧ (sel ==. one) = false)) :
    ∃ e, Sfun.out pol mesh flat s hub method sel = .throw s e := by
  unfold Sfun.out
  by_cases hm : (method ==. zero) = false ∧ (method ==. one) = false
  · rw [Sfun.methodName, if_neg (by simp [hm.1]), if_neg (by simp [hm.2])]
    exact ⟨_, rfl⟩
  · obtain ⟨h0, h1⟩ := h.resolve_left hm
    obtain ⟨name, hn⟩ : ∃ name, Sfun.methodName method = .ok name := by
      unfold Sfun.methodName
      split
      · exact ⟨_, rfl⟩
      · split
        · exact ⟨_, rfl⟩
        · rename_i a b; exact absurd ⟨by simpa using a, by simpa using b⟩ hm
    rw [hn]
    simp only [h0, h1, Bool.false_eq_true, if_false]
    exact ⟨_, rfl⟩

/-- C54, completion: after setups with readable records the bus can always be filled — no slot is out of
range, whatever the number of ribs. -/
theorem C54_fill_total {pol : Policy} {s : Shell α} {o : Nat → Output α} (h : Reports pol s o) (inMesh : Bool) :
    ∃ bus, Sfun.fillBus pol s inMesh = .ok bus := by
  have hall := Shell.allQueries_ok (Shell.records_of_reports h)
  have hslot : ∀ i, ∃ a, Sfun.ribSlot pol s i = .ok a := by
    intro i
    unfold Sfun.ribSlot
    split
    · rename_i hi
      obtain ⟨f, hf⟩ := h.frames.1 i hi
      rw [hf, h.depth i hi, h.friction i hi]
      exact ⟨_, rfl⟩
    · exact ⟨_, rfl⟩
  have hslots : ∀ k i, ∃ rs, Sfun.slots pol s k i = .ok rs := by
    intro k
    induction k with
    | zero => exact fun i => ⟨_, rfl⟩
    | succ k ih =>
      intro i
      obtain ⟨a, ha⟩ := hslot i
      obtain ⟨as, has⟩ := ih (i + 1)
      rw [Sfun.slots, ha, Res.bind_ok, has]
      exact ⟨_, rfl⟩
  obtain ⟨rs, hrs⟩ := hslots Sfun.maxRibs 0
  have ok : ∀ {β : Type} {r : Res β}, r.isOk = true → ∃ b, r = .ok b := by
    intro β r hr
    cases r with
    | ok b => exact ⟨b, rfl⟩
    | throw m => cases hr
    | ub w => cases hr
  obtain ⟨f, hf⟩ := ok hall.affine
  obtain ⟨d, hd⟩ := ok hall.depth
  obtain ⟨mu, hmu⟩ := ok hall.friction
  rw [Sfun.fillBus, hf, Res.bind_ok, hd, Res.bind_ok, hmu, Res.bind_ok, hrs]
  exact ⟨_, rfl⟩

/-- `enve_sfun_out` does return: the demonstration shell on the road, flat ground selected. -/
example (fresh : Nat → Output ℝ) (mesh : Mesh ℝ) : ∃ (s s' : Shell ℝ) (bus : OutputBus ℝ),
    Shell.make fresh 1 1 2 2 2 1 = .ok s ∧
    Sfun.out .raw mesh Demo.road s (Demo.upright 0) 0 1 = .ok s' bus ∧
    bus.ribsRho[0]? = some 1 := by
  have heps := real_eps_le_half
  obtain ⟨s, a, h1, -, hab, ha, hac, haR, haw⟩ := Demo.oneRib fresh
  have hreach : s.Reachable .raw := .make h1
  have hacc : s.out.accessible .raw 0 = true := by
    rw [Shell.accessible_raw hreach.inv]; exact decide_eq_true (by omega)
  have henv : a.envelopFlat Demo.road (Demo.upright 0) "geometric" = .ok (true,
      { point := ⟨0, 0, 0⟩, normal := ⟨0, 0, 1⟩, friction := 1, depth := 1 - 0
        area := Rib.depthArea 1 a.width (1 - 0), volume := Rib.depthVolume 1 a.width (1 - 0) }) := by
    rw [Rib.envelopFlat, if_pos rfl, Demo.oneRib_eval ha hac haR le_rfl (by norm_num; linarith)]
  have hset : ∃ s', s.setupFlat .raw Demo.road (Demo.upright 0) "geometric" = .ok s' true := by
    rw [Shell.setupFlat_eq, hab]
    simp only [Shell.ribLoop, hacc, Bool.not_true, Bool.false_eq_true, if_false, henv, Shell.withOut]
    exact ⟨_, rfl⟩
  obtain ⟨s', hset⟩ := hset
  have hsu : SetUp .raw s (Demo.upright 0) "geometric" s' true := .inr ⟨_, _, _, _, Demo.road_make, hset⟩
  have hribs : s'.ribs = [a] := by rw [hsu.rel.ribs, hab]
  obtain ⟨o, hrep, -⟩ := hsu.reports hreach
  obtain ⟨bus, hbus⟩ := C54_fill_total hrep true
  have hout : Sfun.out .raw mesh Demo.road s (Demo.upright 0) 0 1 = .ok s' bus := by
    simp [Sfun.out, Sfun.methodName, hset, Sfun.finish, hbus]
  refine ⟨s, s', bus, h1, hout, ?_⟩
  obtain ⟨-, -, hm, -⟩ := C54_bus hout
  obtain ⟨f, d, mu, l, -, hd, -, hs, -⟩ := hm.used 0 (by omega) (by simp [Shell.size, hribs])
  obtain ⟨flags, recs, k, -⟩ := C38_flat_flag_partial .raw s s' Demo.road _ _ _ hset
  obtain ⟨r, hr, he, hread⟩ := k 0 (by simp [Shell.size, hab])
  rw [hribs] at hr
  obtain rfl : a = r := by simpa using hr
  dsimp only at he
  rw [henv] at he
  have he := (Prod.mk.inj (Res.ok.inj he)).2
  rw [Shell.contactDepthAt, hread, ← he] at hd
  have hd : (1 : ℝ) - 0 = d := Res.ok.inj hd
  unfold OutputBus.slot at hs
  split at hs
  · rename_i e1 e2 e3
    rw [e2]
    cases hs
    rw [← hd]; norm_num
  · cases hs

end Enve
