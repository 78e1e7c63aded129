import Verif.Spec.Report
import Verif.Props.CamberProps

/-! # C101, C102: printed reports -/

namespace Enve

open Scalar Spec Tok

section
variable {α : Type}

@[simp] theorem Spec.isFormat_text (s : String) : isFormat (.text s : Tok α) = false := rfl
@[simp] theorem Spec.isFormat_num (x : α) : isFormat (.num x) = false := rfl
@[simp] theorem Spec.isFormat_int (n : Int) : isFormat (.int n : Tok α) = false := rfl
@[simp] theorem Spec.isFormat_row (v : V3 α) : isFormat (.row v) = false := rfl
@[simp] theorem Spec.isFormat_mat (p : Affine α) : isFormat (.mat p) = false := rfl
@[simp] theorem Spec.isFormat_endl : isFormat (.endl : Tok α) = false := rfl
@[simp] theorem Spec.isFormat_sci : isFormat (.sci : Tok α) = true := rfl

theorem Spec.plain_append (a b : List (Tok α)) : plain (a ++ b) = plain a ++ plain b := List.filter_append ..

theorem Spec.Prints.of_mem {bs : List (List (Tok α))} {a b : List (Tok α)} (hb : b ∈ bs) (h : a <:+: plain b) :
    Prints bs.flatten a := by
  obtain ⟨l, r, rfl⟩ := List.append_of_mem hb
  refine h.trans ⟨plain l.flatten, plain r.flatten, ?_⟩
  simp [plain_append]

theorem Spec.occurrences_append (l : String) (a b : List (Tok α)) :
    occurrences l (a ++ b) = occurrences l a + occurrences l b := List.countP_append

theorem Spec.occurrences_cons (l : String) (a b : Tok α) (c : List (Tok α)) :
    occurrences l (a :: b :: c) = occurrences l [a] + occurrences l (b :: c) := occurrences_append l [a] (b :: c)

@[simp] theorem Spec.occurrences_nil (l : String) : occurrences l ([] : List (Tok α)) = 0 := rfl
@[simp] theorem Spec.occurrences_text (l s : String) :
    occurrences l ([.text s] : List (Tok α)) = if s = l then 1 else 0 := by
  simp [occurrences, List.countP_cons]
@[simp] theorem Spec.occurrences_num (l : String) (x : α) : occurrences l [.num x] = 0 := rfl
@[simp] theorem Spec.occurrences_int (l : String) (n : Int) : occurrences l ([.int n] : List (Tok α)) = 0 := rfl
@[simp] theorem Spec.occurrences_row (l : String) (v : V3 α) : occurrences l [.row v] = 0 := rfl
@[simp] theorem Spec.occurrences_mat (l : String) (p : Affine α) : occurrences l [.mat p] = 0 := rfl
@[simp] theorem Spec.occurrences_endl (l : String) : occurrences l ([.endl] : List (Tok α)) = 0 := rfl
@[simp] theorem Spec.occurrences_sci (l : String) : occurrences l ([.sci] : List (Tok α)) = 0 := rfl

theorem Spec.occurrences_flatten (l : String) (bs : List (List (Tok α))) :
    occurrences l bs.flatten = (bs.map (occurrences l)).sum := by
  unfold occurrences
  rw [List.countP_flatten]

theorem Spec.occurrences_const (l : String) {β : Type} (f : Nat → β → List (Tok α)) (c : Nat)
    (h : ∀ i v, occurrences l (f i v) = c) (vs : List β) : ((vs.mapIdx f).map (occurrences l)).sum = vs.length * c := by
  have : (vs.mapIdx f).map (occurrences l) = List.replicate vs.length c := by
    refine List.ext_getElem (by simp) fun i h1 h2 => ?_
    simp [h]
  rw [this, List.sum_replicate, smul_eq_mul]

theorem Spec.Prints.sub {ts : List (Tok α)} (l m r : List (Tok α)) (h : Prints ts (l ++ m ++ r)) : Prints ts m :=
  List.IsInfix.trans ⟨l, r, rfl⟩ h

/-- Behind a label that occurs once stands one thing. -/
theorem Spec.Prints.unique {ts : List (Tok α)} {l : String} (h1 : occurrences l ts = 1) {a b : Tok α}
    (ha : Prints ts [.text l, a]) (hb : Prints ts [.text l, b]) : a = b := by
  have key : ∀ {p q : List (Tok α)} {x : Tok α}, p ++ [.text l, x] ++ q = plain ts →
      (plain ts).takeWhile (fun t => match t with | .text s => s != l | _ => true) = p := by
    intro p q x hp
    have h2 : occurrences l (plain ts) ≤ 1 := by
      rw [← h1]
      unfold occurrences plain
      rw [List.countP_filter]
      exact List.countP_mono_left fun t _ ht => by
        simp only [Bool.and_eq_true] at ht
        exact ht.1
    rw [← hp, occurrences_append, occurrences_append] at h2
    have h3 : occurrences l ([.text l, x] : List (Tok α)) = 1 + occurrences l [x] := by
      simp [occurrences, List.countP_cons]; omega
    have h4 : occurrences l p = 0 := by omega
    rw [← hp, List.append_assoc, List.takeWhile_append_of_pos]
    · simp
    · intro t ht
      have := List.countP_eq_zero.1 h4 t ht
      cases t <;> simp_all
  obtain ⟨p, q, hp⟩ := ha
  obtain ⟨p', q', hp'⟩ := hb
  have e := (key hp).symm.trans (key hp')
  rw [← hp', e] at hp
  simp only [List.append_assoc, List.append_cancel_left_eq] at hp
  simpa using (List.cons.inj (List.cons.inj hp).2).1

theorem Print.ribLines_count (label : String) {β : Type} (l : String) (tok : β → Tok α) (unit : String) (vs : List β)
    (ht : ∀ v, occurrences label [tok v] = 0) : ((Print.ribLines l tok unit vs).map (occurrences label)).sum =
      vs.length * occurrences label ([.text "Rib ", .text l, .text unit] : List (Tok α)) := by
  refine occurrences_const label _ _ (fun i v => ?_) vs
  simp only [occurrences_cons, ht v, occurrences_int, occurrences_endl, Nat.zero_add, Nat.add_zero]

theorem Print.ribLines_mem {β : Type} {label : String} {tok : β → Tok α} {unit : String} {vs : List β} {i : Nat} {v : β}
    (h : vs[i]? = some v) : [.text "Rib ", .int i, .text label, tok v, .text unit, .endl] ∈ Print.ribLines label tok unit vs := by
  unfold Print.ribLines
  rw [List.mem_mapIdx]
  obtain ⟨hi, rfl⟩ := List.getElem?_eq_some_iff.1 h
  exact ⟨i, hi, rfl⟩

end

section
variable {α : Type} [Scalar α]

omit [Scalar α] in
theorem Shell.printedRibs_ok (s : Shell α) (k i : Nat) (h : i + k = s.ribs.length) :
    s.printedRibs k i = .ok (s.ribs.drop i) := by
  induction k generalizing i with
  | zero => rw [Shell.printedRibs, List.drop_eq_nil_of_le (by omega)]
  | succ k ih =>
    have hi : i < s.ribs.length := by omega
    rw [Shell.printedRibs, Shell.ribAt, List.getElem?_eq_getElem hi]
    simp only [Res.bind_ok]
    rw [ih (i + 1) (by omega), Res.bind_ok, Res.pure_eq, ← List.drop_eq_getElem_cons hi]

/-- The values that are printed. -/
theorem Shell.print_ok {pol : Policy} {s : Shell α} {o : Nat → Output α} (h : Reports pol s o) (v : V3 α) (x : α)
    (p : Affine α) : ∃ point normal friction depth area volume rel frame points normals frictions depths areas volumes
      rels, s.contactPoint pol = .ok point ∧ s.contactNormal pol = .ok normal ∧ s.contactFriction pol = .ok friction ∧
      s.contactDepth pol = .ok depth ∧ s.contactArea pol = .ok area ∧ s.contactVolume pol = .ok volume ∧
      s.relativeAngles pol = .ok rel ∧ s.contactPointAffine pol = .ok frame ∧
      PerRib s.size (s.contactPointAt pol) points ∧ PerRib s.size (s.contactNormalAt pol) normals ∧
      PerRib s.size (s.contactFrictionAt pol) frictions ∧ PerRib s.size (s.contactDepthAt pol) depths ∧
      PerRib s.size (s.contactAreaAt pol) areas ∧ PerRib s.size (s.contactVolumeAt pol) volumes ∧
      PerRib s.size (s.relativeAnglesAt pol) rels ∧
      s.print pol v x p = .ok (Print.shellBlocks s point normal friction depth area volume rel frame points normals
        frictions depths areas volumes rels s.ribs).flatten := by
  have hq := Shell.allQueries_ok (Shell.records_of_reports h)
  have ex : ∀ {β : Type} {r : Res β}, r.isOk = true → ∃ a, r = .ok a := by
    intro β r hr
    cases r with
    | ok a => exact ⟨a, rfl⟩
    | throw m => cases hr
    | ub w => cases hr
  have hrep : ∀ {β : Type} (d : β) (n : Nat), Shell.resizeVec (List.replicate n d) n d = List.replicate n d := by
    intro β d n; simp [Shell.resizeVec]
  obtain ⟨point, h1⟩ := ex hq.point
  obtain ⟨normal, h2⟩ := ex hq.normal
  obtain ⟨friction, h3⟩ := ex hq.friction
  obtain ⟨depth, h4⟩ := ex hq.depth
  obtain ⟨area, h5⟩ := ex hq.area
  obtain ⟨volume, h6⟩ := ex hq.volume
  obtain ⟨rel, h7⟩ := ex hq.angles
  obtain ⟨frame, h8⟩ := ex hq.affine
  obtain ⟨v1, v2, v3, v4, v5, v6⟩ := C47_vector_getters h
  obtain ⟨points, a1, b1⟩ := v1 v []
  obtain ⟨normals, a2, b2⟩ := v2 v []
  obtain ⟨frictions, a3, b3⟩ := v3 x (List.replicate s.size x)
  obtain ⟨depths, a4, b4⟩ := v4 x (List.replicate s.size x)
  obtain ⟨areas, a5, b5⟩ := v5 x (List.replicate s.size x)
  obtain ⟨volumes, a6, b6⟩ := v6 x (List.replicate s.size x)
  obtain ⟨frames, a7, b7⟩ := Shell.fill_perRib h.frames.1 p (List.replicate s.size p)
  obtain ⟨rels, a8, b8⟩ := Shell.fill_perRib h.frames.2 v (List.replicate s.size v)
  rw [hrep] at a7 a8
  refine ⟨point, normal, friction, depth, area, volume, rel, frame, points, normals, frictions, depths, areas, volumes,
    rels, h1, h2, h3, h4, h5, h6, h7, h8, b1, b2, b3, b4, b5, b6, b8, ?_⟩
  have a7 : s.contactPointAffineVec pol (List.replicate s.size p) = .ok frames := a7
  have a8 : s.relativeAnglesVec pol (List.replicate s.size v) = .ok rels := a8
  have hr := Shell.printedRibs_ok s rels.length 0 (by rw [b8.1, Nat.zero_add]; rfl)
  simp only [Shell.print, h1, h2, h3, h4, h5, h6, h7, h8, a1, a2, a3, a4, a5, a6, a7, a8, hr, Res.bind_ok, Res.pure_eq,
    List.drop_zero]

/-- **C101, what holds**: the report exists whenever the records can be read, and shows every quantity of the shell and
of its ribs behind its label. -/
theorem C101_report_partial {pol : Policy} {s : Shell α} {o : Nat → Output α} (h : Reports pol s o) (v : V3 α) (x : α)
    (p : Affine α) : ∃ ts, s.print pol v x p = .ok ts ∧ ShellReport pol s ts := by
  obtain ⟨point, normal, friction, depth, area, volume, rel, frame, points, normals, frictions, depths, areas, volumes,
    rels, h1, h2, h3, h4, h5, h6, h7, h8, b1, b2, b3, b4, b5, b6, b8, hp⟩ := Shell.print_ok h v x p
  refine ⟨_, hp, ?_⟩
  have line : ∀ {β : Type} {f : Nat → Res β} {vs : List β} (hv : PerRib s.size f vs) (label : String) (tok : β → Tok α)
      (unit : String), (∀ v, isFormat (tok v) = false) → (∀ l ∈ Print.ribLines label tok unit vs,
        l ∈ Print.shellBlocks s point normal friction depth area volume rel frame points normals
        frictions depths areas volumes rels s.ribs) → ∀ i < s.size, ∀ w, f i = .ok w →
      Prints (Print.shellBlocks s point normal friction depth area volume rel frame points normals
        frictions depths areas volumes rels s.ribs).flatten
        [.text "Rib ", .int i, .text label, tok w, .text unit, .endl] := by
    intro β f vs hv label tok unit ht hm i hi w hw
    obtain ⟨b, e1, e2⟩ := hv.2 i hi
    rw [hw] at e1
    obtain rfl := Res.ok.inj e1
    refine Prints.of_mem (hm _ (Print.ribLines_mem e2)) ?_
    have : plain [Tok.text "Rib ", .int i, .text label, tok w, .text unit, .endl] =
        [.text "Rib ", .int i, .text label, tok w, .text unit, .endl] := by
      simp [plain, ht]
    rw [this]
  refine { rx := .of_mem (b := Print.shape s.shape) ?_ ⟨[text "SHAPE DATA", endl], _, rfl⟩
           mx := .of_mem (b := Print.shape s.shape) ?_ ⟨[text "SHAPE DATA", endl,
             text "\t Rx = ", num s.shape.rx, text "\t : real - Section radius on x axis (m)", endl], _, rfl⟩
           ry := .of_mem (b := Print.shape s.shape) ?_ ⟨[text "SHAPE DATA", endl,
             text "\t Rx = ", num s.shape.rx, text "\t : real - Section radius on x axis (m)", endl,
             text "\t Mx = ", num s.shape.mx, text "\t : real - Section curve degree for x axis (-)", endl], _, rfl⟩
           my := .of_mem (b := Print.shape s.shape) ?_ ⟨[text "SHAPE DATA", endl,
             text "\t Rx = ", num s.shape.rx, text "\t : real - Section radius on x axis (m)", endl,
             text "\t Mx = ", num s.shape.mx, text "\t : real - Section curve degree for x axis (-)", endl,
             text "\t Ry = ", num s.shape.ry, text "\t : real - Section radius on y axis (m)", endl], _, rfl⟩
           ly := .of_mem (b := Print.shape s.shape) ?_ ⟨[text "SHAPE DATA", endl,
             text "\t Rx = ", num s.shape.rx, text "\t : real - Section radius on x axis (m)", endl,
             text "\t Mx = ", num s.shape.mx, text "\t : real - Section curve degree for x axis (-)", endl,
             text "\t Ry = ", num s.shape.ry, text "\t : real - Section radius on y axis (m)", endl,
             text "\t My = ", num s.shape.my, text "\t : real - Section curve degree for y axis (-)", endl], _, rfl⟩
           maxRadius := .of_mem (b := [text "Shell maximum radius", endl, text "R = ", num s.shape.surfaceMaxRadius,
             text " m", endl]) ?_ ⟨[], _, rfl⟩
           camber := .of_mem (b := [text "Camber angle", endl, text "Γ = ", num (s.poseAngles.y /. Scalar.pi),
             text "pi rad", endl]) ?_ ⟨[], _, rfl⟩
           rotation := .of_mem (b := [text "Rotation angle", endl, text "ß = ", num (s.poseAngles.z /. Scalar.pi),
             text "pi rad", endl]) ?_ ⟨[], _, rfl⟩
           yaw := .of_mem (b := [text "Yaw angle", endl, text "α = ", num (s.poseAngles.x /. Scalar.pi),
             text "pi rad", endl]) ?_ ⟨[], _, rfl⟩
           pose := .of_mem (b := [text "Shell reference frame", endl, mat s.pose, endl]) ?_ ⟨[], _, rfl⟩
           point := fun a ha => ?point
           normal := fun a ha => ?normal
           friction := fun a ha => ?friction
           depth := fun a ha => ?depth
           area := fun a ha => ?area
           volume := fun a ha => ?volume
           frame := fun a ha => ?frame
           ribs := fun i r hr => ?ribs
           ribPoint := line b1 _ _ _ (fun _ => rfl) ?_
           ribNormal := line b2 _ _ _ (fun _ => rfl) ?_
           ribFriction := line b3 _ _ _ (fun _ => rfl) ?_
           ribDepth := line b4 _ _ _ (fun _ => rfl) ?_
           ribArea := line b5 _ _ _ (fun _ => rfl) ?_
           ribVolume := line b6 _ _ _ (fun _ => rfl) ?_
           lines := fun label hl => ?lines }
  all_goals try (simp only [Print.shellBlocks, List.mem_append, List.mem_cons, true_or, or_true]; done)
  case point =>
    rw [h1] at ha; cases ha
    exact .of_mem (b := [text "Contact point (absolute reference frame)", endl, text "P = ", row point, endl])
      (by simp only [Print.shellBlocks, List.mem_append, List.mem_cons, true_or, or_true]) ⟨[], _, rfl⟩
  case normal =>
    rw [h2] at ha; cases ha
    exact .of_mem (b := [text "Contact normal (absolute reference frame)", endl, text "N = ", row normal, endl])
      (by simp only [Print.shellBlocks, List.mem_append, List.mem_cons, true_or, or_true]) ⟨[], _, rfl⟩
  case friction =>
    rw [h3] at ha; cases ha
    exact .of_mem (b := [text "Contact point friction", endl, text "f = ", num friction, endl])
      (by simp only [Print.shellBlocks, List.mem_append, List.mem_cons, true_or, or_true]) ⟨[], _, rfl⟩
  case depth =>
    rw [h4] at ha; cases ha
    exact .of_mem (b := [text "Contact depth (on average point)", endl, text "d = ", num depth, text " m", endl])
      (by simp only [Print.shellBlocks, List.mem_append, List.mem_cons, true_or, or_true]) ⟨[], _, rfl⟩
  case area =>
    rw [h5] at ha; cases ha
    exact .of_mem (b := [text "Contact area (total)", endl, text "A = ", num area, text " m^2", endl])
      (by simp only [Print.shellBlocks, List.mem_append, List.mem_cons, true_or, or_true]) ⟨[], _, rfl⟩
  case volume =>
    rw [h6] at ha; cases ha
    exact .of_mem (b := [text "Contact volume (total)", endl, text "V = ", num volume, text " m^3", endl])
      (by simp only [Print.shellBlocks, List.mem_append, List.mem_cons, true_or, or_true]) ⟨[], _, rfl⟩
  case frame =>
    rw [h8] at ha; cases ha
    exact .of_mem (b := [text "Local contact point reference frame", endl, mat frame, endl])
      (by simp only [Print.shellBlocks, List.mem_append, List.mem_cons, true_or, or_true]) ⟨[], _, rfl⟩
  case ribs =>
    have hi : s.ribs[i]? = some r := by
      unfold Shell.ribAt at hr
      split at hr
      · cases hr; assumption
      · cases hr
    obtain ⟨hlt, rfl⟩ := List.getElem?_eq_some_iff.1 hi
    exact .of_mem (b := [text "Rib ", int i, text " : C = "] ++ Print.vec s.ribs[i].center ++
      [text "        R = ", num s.ribs[i].radius, text " m", endl,
       text "        W = ", num s.ribs[i].width, text " m", endl,
       text "        A = ", num s.ribs[i].angle, text " rad", endl])
      (by
        simp only [Print.shellBlocks, List.mem_append]
        iterate 15 apply Or.inl
        apply Or.inr
        rw [List.mem_mapIdx]
        exact ⟨i, hlt, rfl⟩) ⟨[], [], rfl⟩
  case lines =>
    have hl1 : s.ribs.length = s.size := rfl
    have hr : ((s.ribs.mapIdx fun i r =>
        [text "Rib ", int i, text " : C = "] ++ Print.vec r.center ++
        [text "        R = ", num r.radius, text " m", endl,
         text "        W = ", num r.width, text " m", endl,
         text "        A = ", num r.angle, text " rad", endl]).map (occurrences label)).sum =
        s.ribs.length * (if " : C = " = label then 1 else 0) := by
      refine occurrences_const label _ _ (fun i r => ?_) s.ribs
      rcases hl with rfl | rfl | rfl | rfl | rfl | rfl | rfl | rfl <;>
        simp [Print.vec, occurrences_cons]
    rw [occurrences_flatten]
    simp only [Print.shellBlocks, List.map_append, List.sum_append, hr]
    rw [Print.ribLines_count _ _ _ _ _ fun _ => rfl, Print.ribLines_count _ _ _ _ _ fun _ => rfl,
      Print.ribLines_count _ _ _ _ _ fun _ => rfl, Print.ribLines_count _ _ _ _ _ fun _ => rfl,
      Print.ribLines_count _ _ _ _ _ fun _ => rfl, Print.ribLines_count _ _ _ _ _ fun _ => rfl,
      Print.ribLines_count _ _ _ _ _ fun _ => rfl]
    rcases hl with rfl | rfl | rfl | rfl | rfl | rfl | rfl | rfl <;>
      simp [Print.shape, occurrences_cons, hl1, b1.1, b2.1, b3.1, b4.1, b5.1, b6.1, b8.1]
  all_goals
    intro l hl
    simp only [Print.shellBlocks, List.mem_append, hl, true_or, or_true]

theorem Print.shellBlocks_angle_label (s : Shell α) (point normal : V3 α) (friction depth area volume : α) (rel : V3 α)
    (frame : Affine α) (points normals : List (V3 α)) (frictions depths areas volumes : List α) (rels : List (V3 α))
    (label : String) (hl : label = "[Γ ß α]' = " ∨ label = "A = ") :
    occurrences label (Print.shellBlocks s point normal friction depth area volume rel frame points normals
        frictions depths areas volumes rels s.ribs).flatten = 1 := by
  have hr : ((s.ribs.mapIdx fun i r =>
      [text "Rib ", int i, text " : C = "] ++ Print.vec r.center ++
      [text "        R = ", num r.radius, text " m", endl,
       text "        W = ", num r.width, text " m", endl,
       text "        A = ", num r.angle, text " rad", endl]).map (occurrences label)).sum = s.ribs.length * 0 := by
    refine occurrences_const label _ _ (fun i r => ?_) s.ribs
    rcases hl with rfl | rfl <;> simp [Print.vec, occurrences_cons]
  rw [occurrences_flatten]
  simp only [Print.shellBlocks, List.map_append, List.sum_append, hr]
  rw [Print.ribLines_count _ _ _ _ _ fun _ => rfl, Print.ribLines_count _ _ _ _ _ fun _ => rfl,
    Print.ribLines_count _ _ _ _ _ fun _ => rfl, Print.ribLines_count _ _ _ _ _ fun _ => rfl,
    Print.ribLines_count _ _ _ _ _ fun _ => rfl, Print.ribLines_count _ _ _ _ _ fun _ => rfl,
    Print.ribLines_count _ _ _ _ _ fun _ => rfl]
  rcases hl with rfl | rfl <;> simp [Print.shape, occurrences_cons]

/-- **C101 for the relative angles, what holds**: behind the label that announces camber, rotation and yaw the three
angles stand in the order in which the query returns them, in units of π; the label of the shell occurs once. -/
theorem C101_angles_partial {pol : Policy} {s : Shell α} {o : Nat → Output α} (h : Reports pol s o) (v : V3 α) (x : α)
    (p : Affine α) : ∃ ts, s.print pol v x p = .ok ts ∧ occurrences "[Γ ß α]' = " ts = 1 ∧
      (∀ e, s.relativeAngles pol = .ok e → Prints ts [.text "[Γ ß α]' = ",
        .row ⟨Scalar.div e.x Scalar.pi, Scalar.div e.y Scalar.pi, Scalar.div e.z Scalar.pi⟩, .text "pi rad"]) ∧
      ∀ i < s.size, ∀ e, s.relativeAnglesAt pol i = .ok e → Prints ts [.text "Rib ", .int i, .text " - [Γ ß α]' = ",
        .row ⟨Scalar.div e.x Scalar.pi, Scalar.div e.y Scalar.pi, Scalar.div e.z Scalar.pi⟩, .text "pi rad", .endl] := by
  obtain ⟨point, normal, friction, depth, area, volume, rel, frame, points, normals, frictions, depths, areas, volumes,
    rels, h1, h2, h3, h4, h5, h6, h7, h8, b1, b2, b3, b4, b5, b6, b8, hp⟩ := Shell.print_ok h v x p
  refine ⟨_, hp, Print.shellBlocks_angle_label _ _ _ _ _ _ _ _ _ _ _ _ _ _ _ _ _ (.inl rfl), fun e he => ?_,
    fun i hi e he => ?_⟩
  · rw [h7] at he; cases he
    exact .of_mem (b := [text "Relative pose angles", endl, text "[Γ ß α]' = ", row (V3.sdiv rel Scalar.pi),
      text "pi rad", endl]) (by simp only [Print.shellBlocks, List.mem_append, List.mem_cons, true_or, or_true])
      ⟨[text "Relative pose angles", endl], _, rfl⟩
  · obtain ⟨b, e1, e2⟩ := b8.2 i hi
    rw [he] at e1
    obtain rfl := Res.ok.inj e1
    have hm := Print.ribLines_mem (label := " - [Γ ß α]' = ") (tok := fun a : V3 α => row (V3.sdiv a Scalar.pi))
      (unit := "pi rad") e2
    exact Prints.of_mem (b := [text "Rib ", int i, text " - [Γ ß α]' = ", row (V3.sdiv e Scalar.pi), text "pi rad",
      endl]) (by simp only [Print.shellBlocks, List.mem_append, hm, true_or, or_true]) ⟨[], [], rfl⟩

/-- **C101, the report of a shell whose records lie outside the storage**: it is undefined. -/
theorem C101_ub {pol : Policy} {s : Shell α} (h : (s.records pol).isUb = true) (v : V3 α) (x : α) (p : Affine α) :
    (s.print pol v x p).isUb = true :=
  Shell.isUb_bind (Shell.allQueries_ub h).point

/-- **C101 is false for the format of the stream**: after the report of a shell with at least one rib, the stream writes
numbers in scientific notation. -/
theorem C101_format_refuted {pol : Policy} {s : Shell α} {o : Nat → Output α} (h : Reports pol s o) (hs : 0 < s.size)
    (v : V3 α) (x : α) (p : Affine α) : ∃ ts, s.print pol v x p = .ok ts ∧ scientificAfter ts false = true := by
  obtain ⟨point, normal, friction, depth, area, volume, rel, frame, points, normals, frictions, depths, areas, volumes,
    rels, h1, h2, h3, h4, h5, h6, h7, h8, b1, b2, b3, b4, b5, b6, b8, hp⟩ := Shell.print_ok h v x p
  refine ⟨_, hp, ?_⟩
  have hs : 0 < s.ribs.length := hs
  obtain ⟨r, rs, hr⟩ : ∃ r rs, s.ribs = r :: rs := by
    cases hc : s.ribs with
    | nil => simp [hc] at hs
    | cons r rs => exact ⟨r, rs, rfl⟩
  simp [scientificAfter, Print.shellBlocks, hr, Print.vec]

omit [Scalar α] in
/-- **C101 for the format of the stream, what holds**: the reports on a shape, on a triangle of a mesh and on a flat
ground leave it as it was. -/
theorem C101_format_partial (b : Bool) (c : Shape α) (t : TriangleGround α) (g : Flat α) :
    scientificAfter (Print.shape c) b = b ∧ scientificAfter (Print.triangleGround t) b = b ∧
    scientificAfter (Print.flat g) b = b := by
  refine ⟨?_, ?_, ?_⟩ <;> simp [scientificAfter, Print.shape, Print.triangleGround, Print.flat, Print.coords]

end

/-! ## A wheel that is turned by a quarter -/

/-- The wheel at the origin, turned by a quarter about its axis. -/
def Demo.quarter : Affine ℝ := ⟨⟨⟨0, 0, -1⟩, ⟨0, 1, 0⟩, ⟨1, 0, 0⟩⟩, ⟨0, 0, 0⟩⟩

theorem Demo.quarter_rigid : IsRigid Demo.quarter :=
  ⟨by norm_num [Demo.quarter], by norm_num [Demo.quarter], by norm_num [Demo.quarter],
    by norm_num [Demo.quarter], by norm_num [Demo.quarter], by norm_num [Demo.quarter],
    by norm_num [Demo.quarter]⟩

/-- The demonstration shell, turned by a quarter, on the road. -/
theorem Demo.oneRib_quarter (fresh : Nat → Output ℝ) :
    ∃ (s s' : Shell ℝ), Shell.make fresh 1 1 2 2 2 1 = .ok s ∧ s'.size = 1 ∧ s'.Reachable .raw ∧
      s'.pose = Demo.quarter ∧ SetUp .raw s Demo.quarter "geometric" s' true ∧ Reports .raw s' fun _ =>
      { point := ⟨0, 0, 0⟩, normal := ⟨0, 0, 1⟩, friction := 1, depth := 1 - 0
        area := Rib.depthArea 1 2 (1 - 0), volume := Rib.depthVolume 1 2 (1 - 0) } := by
  have heps := real_eps_le_half
  obtain ⟨s, a, h1, -, hab, ha, hac, haR, haw⟩ := Demo.oneRib fresh
  have hreach : s.Reachable .raw := .make h1
  have hsz : s.size = 1 := by simp [Shell.size, hab]
  have hacc : s.out.accessible .raw 0 = true := by
    rw [Shell.accessible_raw hreach.inv]; exact decide_eq_true (by omega)
  have hrc : ribCentre Demo.quarter a = ribCentre (Demo.upright 0) a := by
    simp only [ribCentre, hac, Demo.upright, Demo.quarter]
    v3
    simp
  have hc1 : Demo.quarter.linear.c1 = (Demo.upright 0).linear.c1 := rfl
  have heval : a.envelopGeometricFlat Demo.road Demo.quarter =
      a.envelopGeometricFlat Demo.road (Demo.upright 0) := by
    have hu := Flat.make_unit Demo.road_make
    rcases Rib.geometricFlat_closed ha Demo.quarter_rigid hu with ⟨c, e⟩ | ⟨c, e⟩
    · rcases Rib.geometricFlat_closed ha (Demo.upright_rigid 0) hu with ⟨c', e'⟩ | ⟨c', e'⟩
      · rw [e, e']
        simp only [sectionDepth, hrc, hc1]
      · refine absurd ?_ c'
        simp only [FlatContact, hrc, hc1] at c ⊢
        exact c
    · have e' := Demo.oneRib_eval ha hac haR (h := 0) le_rfl (by norm_num; linarith)
      rcases Rib.geometricFlat_closed ha (Demo.upright_rigid 0) hu with ⟨c', -⟩ | ⟨-, e''⟩
      · refine absurd ?_ c
        simp only [FlatContact, hrc, hc1] at c' ⊢
        exact c'
      · rw [e''] at e'
        cases (Prod.mk.inj e').1
  have henv : a.envelopFlat Demo.road Demo.quarter "geometric" = .ok (true,
      { point := ⟨0, 0, 0⟩, normal := ⟨0, 0, 1⟩, friction := 1, depth := 1 - 0
        area := Rib.depthArea 1 2 (1 - 0), volume := Rib.depthVolume 1 2 (1 - 0) }) := by
    rw [Rib.envelopFlat, if_pos rfl, heval, Demo.oneRib_eval ha hac haR le_rfl (by norm_num; linarith), haw]
  have hset : ∃ s', s.setupFlat .raw Demo.road Demo.quarter "geometric" = .ok s' true := by
    rw [Shell.setupFlat_eq, hab]
    simp only [Shell.ribLoop, hacc, Bool.not_true, Bool.false_eq_true, if_false, henv, Shell.withOut]
    exact ⟨_, rfl⟩
  obtain ⟨s', hset⟩ := hset
  have hsu : SetUp .raw s Demo.quarter "geometric" s' true := .inr ⟨_, _, _, _, Demo.road_make, hset⟩
  have hribs : s'.ribs = [a] := by rw [hsu.rel.ribs, hab]
  refine ⟨s, s', h1, by simp [Shell.size, hribs], .setupFlat hreach (.inl hset), hsu.rel.pose, hsu, ?_⟩
  obtain ⟨flags, recs, k, -⟩ := C38_flat_flag_partial .raw s s' Demo.road _ _ _ hset
  rw [Shell.reports_iff]
  intro i hi
  obtain rfl : i = 0 := by simp [Shell.size, hribs] at hi; exact hi
  obtain ⟨r, hr, he, hread⟩ := k 0 (by omega)
  rw [hribs] at hr
  obtain rfl : a = r := by simpa using hr
  rw [hread]
  dsimp only at he
  rw [henv] at he
  exact congrArg _ (Prod.mk.inj (Res.ok.inj he)).2.symm

/-- **C101 is false for the relative angles.**  The demonstration shell, turned by a quarter about its axis: the report
shows its rotation in the place of the yaw. -/
theorem C101_angles_refuted (fresh : Nat → Output ℝ) (v : V3 ℝ) (x : ℝ) (p : Affine ℝ) :
    ∃ (s s' : Shell ℝ) (ts : List (Tok ℝ)), Shell.make fresh 1 1 2 2 2 1 = .ok s ∧
      SetUp .raw s Demo.quarter "geometric" s' true ∧ s'.print .raw v x p = .ok ts ∧ ¬ AngleReport .raw s' ts := by
  obtain ⟨s, s', h1, hsz, hre, hpose, hsu, hrep⟩ := Demo.oneRib_quarter fresh
  obtain ⟨ts, hts, hocc, hsh, -⟩ := C101_angles_partial hrep v x p
  refine ⟨s, s', ts, h1, hsu, hts, fun hA => ?_⟩
  have hv : Rib.depthVolume 1 2 ((1 : ℝ) - 0) = Real.pi := by simp [Rib.depthVolume]
  obtain ⟨n, hn, h5, -⟩ := C45_shell_normal hrep
  have hw := ribWeight_sum (n := s'.size) (by omega) fun _ => Rib.depthVolume 1 2 ((1 : ℝ) - 0)
  simp only [mul_zero, mul_one, Finset.sum_const_zero, hw] at h5
  have h6 := (h5 (by simp)).2
  have hn : s'.contactNormal .raw = .ok ⟨0, 0, 1⟩ := by
    rw [hn, h6]
    norm_num [length3]
  have hp : s'.contactPoint .raw = .ok ⟨0, 0, 0⟩ := by
    refine (C43_bounds hrep (by omega) fun _ _ => ?_).2.2.2.1 _ fun _ _ => rfl
    dsimp only
    rw [hv]; exact Real.pi_pos.le
  have hpar : ¬ Parallel3 s'.pose.linear.c1 ⟨0, 0, 1⟩ := by
    rw [hpose]; intro h; have := h.1; norm_num [Demo.quarter] at this
  have hrig : IsRigid s'.pose := by rw [hpose]; exact Demo.quarter_rigid
  obtain ⟨f, e, f1, f2, f3⟩ := C100_shell_partial hrig hp hn (by norm_num [length3]) hpar
  obtain ⟨f', g1, g2⟩ := C46_shell_frame hp hn (by norm_num [length3]) hpar
  rw [f1] at g1; cases g1
  have hu := Prints.unique hocc (Prints.sub [] [_, _] [.text "pi rad"] (hsh e f2)) (hA.shell e f2)
  have hz : e.z = 0 := by
    have := congrArg (fun t : Tok ℝ => match t with | .row v => v.z | _ => 0) hu
    simp only [real_div] at this
    rw [f3.yaw] at this
    have hpi := Real.pi_ne_zero
    have hpi' : (Scalar.pi : ℝ) = Real.pi := rfl
    rw [hpi'] at this
    field_simp at this
    exact this
  have ht := f3.turned
  rw [hz, hpose] at ht
  have hx : Demo.quarter.linear.c0 = f.linear.c0 := by
    rw [ht]; v3; simp
  have hor := g2.rotation.orth02
  rw [g2.z_axis, ← hx] at hor
  norm_num [Demo.quarter] at hor

/-- **C101 is false for the total contact area** (C41): of the demonstration shell with the contact area 4 the report
shows the total 1 and not 4. -/
theorem C101_area_refuted (fresh : Nat → Output ℝ) (v : V3 ℝ) (x : ℝ) (p : Affine ℝ) :
    ∃ (s s' : Shell ℝ) (ts : List (Tok ℝ)), Shell.make fresh 1 1 2 2 2 1 = .ok s ∧ s'.size = 1 ∧
      SetUp .raw s (Demo.upright 0) "geometric" s' true ∧ s'.print .raw v x p = .ok ts ∧
      Prints ts [.text "Rib ", .int 0, .text " - A = ", .num 4, .text " m^2", .endl] ∧
      Prints ts [.text "Contact area (total)", .endl, .text "A = ", .num 1, .text " m^2"] ∧
      ¬ Prints ts [.text "Contact area (total)", .endl, .text "A = ", .num 4, .text " m^2"] := by
  have heps := real_eps_le_half
  obtain ⟨s, s', h1, h2, -, h3, h4⟩ := Demo.oneRib_road fresh (h := 0) le_rfl (by norm_num; linarith)
  obtain ⟨ts, hts, hr⟩ := C101_report_partial h4 v x p
  have ht : s'.contactArea .raw = .ok 1 := by
    rw [(C41_total_partial h4).1, ribSum_real, h2]
    simp
  have hA := hr.area 1 ht
  refine ⟨s, s', ts, h1, h2, h3, hts, hr.ribArea 0 (by omega) 4 ?_, hA, fun hB => ?_⟩
  · rw [h4.area 0 (by omega)]
    norm_num [Rib.depthArea]
  · have hocc : occurrences "A = " ts = 1 := by
      obtain ⟨point, normal, friction, depth, area, volume, rel, frame, points, normals, frictions, depths, areas,
        volumes, rels, -, -, -, -, -, -, -, -, -, -, -, -, -, -, -, hp⟩ := Shell.print_ok h4 v x p
      rw [hts] at hp; cases hp
      exact Print.shellBlocks_angle_label _ _ _ _ _ _ _ _ _ _ _ _ _ _ _ _ _ (.inr rfl)
    have := Prints.unique hocc
      (Prints.sub [.text "Contact area (total)", .endl] [_, _] [.text " m^2"] hA)
      (Prints.sub [.text "Contact area (total)", .endl] [_, _] [.text " m^2"] hB)
    norm_num at this

/-! ## Meshes and trees -/

section
variable {α : Type}

theorem Print.meshTriangle_plain (t : TriangleGround α) (i : Nat) :
    plain (Print.meshTriangle t i) = triangleReport i t ++ [.endl] := rfl

/-- **C102 for a mesh.**  The file of a mesh shows every triangle, with its position, its vertices, its normal and its
friction, and no other triangle. -/
theorem C102_mesh (m : Mesh α) : (∀ (i : Nat) t, m.triangles[i]? = some t → Prints (Print.mesh m) (triangleReport i t)) ∧
    occurrences "T  = " (Print.mesh m) = m.triangles.length := by
  refine ⟨fun i t ht => ?_, ?_⟩
  · obtain ⟨hi, rfl⟩ := List.getElem?_eq_some_iff.1 ht
    have h1 : Prints (m.triangles.mapIdx fun i t => Print.meshTriangle t i).flatten (triangleReport i m.triangles[i]) :=
      .of_mem (b := Print.meshTriangle m.triangles[i] i) (List.mem_mapIdx.2 ⟨i, hi, rfl⟩) ⟨[], [.endl], rfl⟩
    obtain ⟨l, r, h2⟩ := h1
    unfold Prints Print.mesh
    rw [plain_append, ← h2, ← List.append_assoc, ← List.append_assoc]
    exact ⟨_, r, rfl⟩
  · rw [Print.mesh, occurrences_append, occurrences_flatten, occurrences_const _ _ 1 fun i t => by
      simp [Print.meshTriangle, Print.vec, occurrences_cons]]
    simp [occurrences_cons]

/-- **C102, different meshes have different files**: the file determines the number of the triangles, and the vertices,
the normal and the friction of each. -/
theorem C102_mesh_determined {m m' : Mesh α} (h : Print.mesh m = Print.mesh m') :
    m.triangles.map (fun t => (t.tri, t.normal, t.friction)) =
      m'.triangles.map fun t => (t.tri, t.normal, t.friction) := by
  have key : ∀ (ts ts' : List (TriangleGround α)) (k : Nat),
      (ts.mapIdx fun i t => Print.meshTriangle t (i + k)).flatten =
        (ts'.mapIdx fun i t => Print.meshTriangle t (i + k)).flatten →
      ts.map (fun t => (t.tri, t.normal, t.friction)) = ts'.map fun t => (t.tri, t.normal, t.friction) := by
    intro ts
    induction ts with
    | nil =>
      intro ts' k h
      cases ts' with
      | nil => rfl
      | cons t' ts' => simp [Print.meshTriangle] at h
    | cons t ts ih =>
      intro ts' k h
      cases ts' with
      | nil => simp [Print.meshTriangle] at h
      | cons t' ts' =>
        rw [List.mapIdx_cons, List.mapIdx_cons, List.flatten_cons, List.flatten_cons] at h
        obtain ⟨h1, h2⟩ := List.append_inj h (by simp [Print.meshTriangle, Print.vec])
        have h3 := ih ts' (k + 1) (by
          simpa only [Nat.add_assoc, Nat.add_comm 1 k] using h2)
        rw [List.map_cons, List.map_cons, h3]
        congr 1
        simp only [Print.meshTriangle, Print.vec, List.cons_append, List.nil_append, List.cons.injEq, Tok.num.injEq,
          true_and, and_true] at h1
        obtain ⟨a1, a2, a3, b1, b2, b3, c1, c2, c3, n1, n2, n3, f⟩ := h1
        refine Prod.ext ?_ (Prod.ext (V3.ext n1 n2 n3) f)
        have e1 := V3.ext a1 a2 a3
        have e2 := V3.ext b1 b2 b3
        have e3 := V3.ext c1 c2 c3
        exact Triangle.ext e1 e2 e3
  have := List.append_cancel_left h
  exact key m.triangles m'.triangles 0 this

variable [Scalar α]

omit [Scalar α] in
theorem Print.trees_boxes {ts : List (Tree α)} {bs : List (Box α)} (h : Boxes ts bs) (level : Int) :
    Print.trees ts level = .ok (bs.map Print.treeBox).flatten := by
  induction h generalizing level with
  | nil => rfl
  | node hc hr ihc ihr =>
    rw [Print.trees, Print.tree, ihc, ihr]
    simp [Res.bind_ok, Res.pure_eq]

theorem Tree.build_boxes (bs : List (Box α)) (hne : bs ≠ []) (rest : List (Tree α)) (bs' : List (Box α))
    (hr : Boxes rest bs') : ∃ all, Boxes (Tree.build bs :: rest) (all ++ bs') ∧ all.length = 2 * bs.length - 1 ∧
      List.Subperm bs all := by
  induction hl : bs.length using Nat.strongRecOn generalizing bs rest bs' with
  | _ n ih =>
    subst hl
    match bs, hne with
    | [b], _ => exact ⟨[b], by rw [Tree.build]; exact .node .nil hr, rfl, List.Subperm.refl _⟩
    | b0 :: b1 :: bs, _ =>
      obtain ⟨neg, pos, h1, h2, h3, h4, h5, he⟩ := Tree.build_node b0 b1 bs
      rw [he]
      obtain ⟨a1, p1, l1, s1⟩ := ih _ h4 pos h2 [] [] .nil rfl
      obtain ⟨a2, p2, l2, s2⟩ := ih _ h3 neg h1 _ _ p1 rfl
      refine ⟨_ :: (a2 ++ (a1 ++ [])), .node p2 hr, ?_, ?_⟩
      · have := h5.length_eq
        have g1 : 0 < neg.length := List.length_pos_iff.2 h1
        have g2 : 0 < pos.length := List.length_pos_iff.2 h2
        simp only [List.length_append, List.length_cons, List.append_nil, l1, l2] at this ⊢
        omega
      · rw [List.append_nil]
        exact (h5.symm.subperm.trans (s2.append s1)).trans (List.Sublist.subperm (List.sublist_cons_self _ _))

/-- **C102 for a bounding box tree.**  The report on the tree over `n` boxes shows the boxes of all its `2 n - 1` nodes,
parents before children, among them all the boxes it was built from; the report on the empty tree says that it is
empty.  This holds in any arithmetic. -/
theorem C102_tree (bs : List (Box α)) (level : Int) :
    (bs = [] → Print.tree (Tree.build bs) level = .ok [.text "[EMPTY AABB tree]", .endl]) ∧
    (bs ≠ [] → ∃ all ts, Boxes [Tree.build bs] all ∧ all.length = 2 * bs.length - 1 ∧ List.Subperm bs all ∧
      Print.tree (Tree.build bs) level = .ok ts ∧ plain ts = (all.map boxReport).flatten) := by
  refine ⟨fun h => by subst h; rw [Tree.build]; rfl, fun hne => ?_⟩
  obtain ⟨all, h1, h2, h3⟩ := Tree.build_boxes bs hne [] [] .nil
  rw [List.append_nil] at h1
  have h4 := Print.trees_boxes h1 level
  refine ⟨all, (all.map Print.treeBox).flatten, h1, h2, h3, ?_, ?_⟩
  · rw [Print.trees, Print.trees] at h4
    cases ht : Print.tree (Tree.build bs) level with
    | ok a => rw [ht] at h4; simpa [Res.bind_ok, Res.pure_eq] using h4
    | throw m => rw [ht] at h4; cases h4
    | ub w => rw [ht] at h4; cases h4
  · clear h1 h2 h3 h4
    induction all with
    | nil => rfl
    | cons b all ih =>
      rw [List.map_cons, List.flatten_cons, plain_append, ih]
      rfl

/-- **C102 for single values, in any arithmetic.**  What is printed of a value shows its parts in this order, hence determines it; a
pose is shown with the images of the axes and the translation as the columns. -/
theorem C102_values :
    (∀ v : V3 α, numbers (Print.vec v) = three v) ∧
    (∀ l : Line α, numbers (Print.line l) = three l.origin ++ three l.direction) ∧
    (∀ l : Line α, numbers (Print.ray l) = three l.origin ++ three l.direction) ∧
    (∀ p : Plane α, numbers (Print.plane p) = three p.origin ++ three p.normal) ∧
    (∀ s : Segment α, numbers (Print.segment s) = three s.v0 ++ three s.v1) ∧
    (∀ b : Box α, numbers (Print.box b) = three b.min ++ three b.max) ∧
    (∀ t : Triangle α, numbers (Print.triangle t) = three t.v0 ++ three t.v1 ++ three t.v2) ∧
    (∀ d : Disk α, numbers (Print.disk d) = d.radius :: (three d.center ++ three d.normal)) ∧
    (∀ b : Ball α, numbers (Print.ball b) = b.radius :: three b.center) ∧
    (∀ p q : Affine α, Print.affine p = Print.affine q → p = q) := by
  refine ⟨fun _ => rfl, fun _ => rfl, fun _ => rfl, fun _ => rfl, fun _ => rfl, fun _ => rfl, fun _ => rfl, fun _ => rfl,
    fun _ => rfl, fun p q h => ?_⟩
  have h := congrArg numbers h
  have e : ∀ p : Affine α, numbers (Print.affine p) =
      [p.linear.c0.x, p.linear.c1.x, p.linear.c2.x, p.trans.x, p.linear.c0.y, p.linear.c1.y, p.linear.c2.y, p.trans.y,
        p.linear.c0.z, p.linear.c1.z, p.linear.c2.z, p.trans.z, zero, zero, zero, one] := fun _ => rfl
  rw [e, e] at h
  simp only [List.cons.injEq] at h
  obtain ⟨h1, h2, h3, h4, h5, h6, h7, h8, h9, h10, h11, h12, -⟩ := h
  obtain ⟨⟨⟨a, b, c⟩, ⟨d, e, f⟩, ⟨g, i, j⟩⟩, ⟨k, l, m⟩⟩ := p
  obtain ⟨⟨⟨a', b', c'⟩, ⟨d', e', f'⟩, ⟨g', i', j'⟩⟩, ⟨k', l', m'⟩⟩ := q
  simp_all

omit [Scalar α] in
/-- **C102 for profiles and grounds.**  The reports show the numbers in this order, and that of a ground triangle its identifier; two
flats with the same report are equal. -/
theorem C102_objects :
    (∀ s : Shape α, numbers (Print.shape s) = [s.rx, s.mx, s.ry, s.my, s.ly]) ∧
    (∀ t : TriangleGround α, numbers (Print.triangleGround t) = t.friction :: (three t.tri.v0 ++ three t.tri.v1 ++ three t.tri.v2 ++
      three t.normal ++ three t.bbox.max ++ three t.bbox.min) ∧ Prints (Print.triangleGround t) [.text "\t ID  = ", .int t.id]) ∧
    (∀ g : Flat α, numbers (Print.flat g) = g.friction :: (three g.plane.origin ++ three g.plane.normal)) ∧
    (∀ g g' : Flat α, Print.flat g = Print.flat g' → g = g') := by
  refine ⟨fun _ => rfl, fun _ => ⟨rfl, ⟨[.text "TRINGLEGROUND DATA"], _, rfl⟩⟩, fun _ => rfl, fun g g' h => ?_⟩
  have h := congrArg numbers h
  have e : ∀ g : Flat α, numbers (Print.flat g) = g.friction :: (three g.plane.origin ++ three g.plane.normal) := fun _ => rfl
  rw [e, e] at h
  simp only [three, List.cons_append, List.nil_append, List.cons.injEq] at h
  obtain ⟨h1, h2, h3, h4, h5, h6, h7, -⟩ := h
  obtain ⟨⟨⟨a, b, c⟩, ⟨d, e, f⟩⟩, k⟩ := g
  obtain ⟨⟨⟨a', b', c'⟩, ⟨d', e', f'⟩⟩, k'⟩ := g'
  simp_all

end

/-- **C102 for a pose.**  The printed numbers are the rows of the matrix that maps `(x, y, z, 1)` to the transformed point and 1. -/
theorem C102_pose (p : Affine ℝ) : ∃ a : Fin 4 → Fin 4 → ℝ,
    numbers (Print.affine p) = (List.finRange 4).flatMap (fun i => (List.finRange 4).map (a i)) ∧
    ∀ v : V3 ℝ, (p.apply v).x = a 0 0 * v.x + a 0 1 * v.y + a 0 2 * v.z + a 0 3 ∧
      (p.apply v).y = a 1 0 * v.x + a 1 1 * v.y + a 1 2 * v.z + a 1 3 ∧
      (p.apply v).z = a 2 0 * v.x + a 2 1 * v.y + a 2 2 * v.z + a 2 3 ∧
      1 = a 3 0 * v.x + a 3 1 * v.y + a 3 2 * v.z + a 3 3 := by
  refine ⟨![![p.linear.c0.x, p.linear.c1.x, p.linear.c2.x, p.trans.x], ![p.linear.c0.y, p.linear.c1.y, p.linear.c2.y, p.trans.y],
    ![p.linear.c0.z, p.linear.c1.z, p.linear.c2.z, p.trans.z], ![0, 0, 0, 1]], ?_, fun v => ?_⟩
  · simp [Print.affine, Print.affineRow, numbers, List.finRange]
  · simp [Affine.apply, M3.mulVec, V3.add]

/-- A case for C102: a mesh of two triangles. -/
example : Prints (Print.mesh (Mesh.ofTriangles [Demo.low, Demo.spike])) (triangleReport 1 Demo.spike) :=
  (C102_mesh _).1 1 _ rfl

section
variable {α : Type}

/-- The text shows the vector after the label. -/
def Spec.Labelled (ts : List (Tok α)) (label : String) (v : V3 α) : Prop :=
  Prints ts [.text label, .text "[ ", .num v.x, .text ", ", .num v.y, .text ", ", .num v.z, .text " ]'"]

theorem Print.cut (ts a : List (Tok α)) (k : Nat) (h : ((plain ts).drop k).take a.length = a) : Prints ts a := by
  refine ⟨(plain ts).take k, (plain ts).drop (k + a.length), ?_⟩
  have : a ++ (plain ts).drop (k + a.length) = (plain ts).drop k := by
    rw [← List.drop_drop]
    nth_rewrite 1 [← h]
    rw [List.take_append_drop]
  rw [List.append_assoc, this, List.take_append_drop]

/-- **C102, labels**: each part of a value is printed after its own label. -/
theorem C102_labels :
    (∀ l : Line α, Labelled (Print.line l) "Line origin    = " l.origin ∧ Labelled (Print.line l) "Line direction = " l.direction) ∧
    (∀ l : Line α, Labelled (Print.ray l) "Ray origin    = " l.origin ∧ Labelled (Print.ray l) "Ray direction = " l.direction) ∧
    (∀ p : Plane α, Labelled (Print.plane p) "Plane origin = " p.origin ∧ Labelled (Print.plane p) "Plane normal = " p.normal) ∧
    (∀ s : Segment α, Labelled (Print.segment s) "Segment vertex 0 = " s.v0 ∧ Labelled (Print.segment s) "Segment vertex 1 = " s.v1) ∧
    (∀ b : Box α, Labelled (Print.box b) "Aabb minimum point = " b.min ∧ Labelled (Print.box b) "Aabb maximum point = " b.max) ∧
    (∀ t : Triangle α, Labelled (Print.triangle t) "Triangle vertex 0 = " t.v0 ∧ Labelled (Print.triangle t) "Triangle vertex 1 = " t.v1 ∧
      Labelled (Print.triangle t) "Triangle vertex 2 = " t.v2) ∧
    (∀ d : Disk α, Prints (Print.disk d) [.text "Disk radius = ", .num d.radius] ∧ Labelled (Print.disk d) "Disk center = " d.center ∧
      Labelled (Print.disk d) "Disk normal = " d.normal) ∧
    (∀ b : Ball α, Prints (Print.ball b) [.text "Ball radius = ", .num b.radius] ∧ Labelled (Print.ball b) "Ball center = " b.center) := by
  refine ⟨fun _ => ⟨?_, ?_⟩, fun _ => ⟨?_, ?_⟩, fun _ => ⟨?_, ?_⟩, fun _ => ⟨?_, ?_⟩, fun _ => ⟨?_, ?_⟩, fun _ => ⟨?_, ?_, ?_⟩,
    fun _ => ⟨?_, ?_, ?_⟩, fun _ => ⟨?_, ?_⟩⟩
  all_goals first
    | exact Print.cut _ _ 0 rfl
    | exact Print.cut _ _ 9 rfl
    | exact Print.cut _ _ 18 rfl
    | exact Print.cut _ _ 3 rfl
    | exact Print.cut _ _ 12 rfl

end

end Enve
