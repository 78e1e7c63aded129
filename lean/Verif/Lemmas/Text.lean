import Verif.Model.Text
import Verif.Spec.Text
import Mathlib.Data.List.Basic
import Mathlib.Data.List.TakeWhile

/-! # The tokenizer meets its specification -/

namespace Enve
namespace Text
open Spec

theorem splitLoop_append (l tmp : List Char) (out : List (List Char)) :
    splitLoop l tmp out = out ++ splitLoop l tmp [] := by
  induction l generalizing tmp out with
  | nil => simp [splitLoop]
  | cons c cs ih =>
    simp only [splitLoop]
    split
    · split
      · exact ih _ _
      · rw [ih, ih _ ([] ++ [tmp])]; simp
    · split
      · simp
      · exact ih _ _

theorem splitLoop_space (l : List Char) : splitLoop (' ' :: l) [] [] = splitLoop l [] [] := by
  simp [splitLoop]

theorem splitLoop_word (w l tmp : List Char) (hw : w ≠ []) (hs : ' ' ∉ w)
    (hl : l = [] ∨ ∃ l', l = ' ' :: l') :
    splitLoop (w ++ l) tmp [] = (tmp ++ w) :: splitLoop l [] [] := by
  induction w generalizing tmp with
  | nil => exact absurd rfl hw
  | cons c cs ih =>
    have hc : (c == ' ') = false := by
      have : c ≠ ' ' := by rintro rfl; simp at hs
      simpa using this
    have hcs : ' ' ∉ cs := by intro h; exact hs (by simp [h])
    cases cs with
    | nil =>
      rcases hl with rfl | ⟨l', rfl⟩
      · simp [splitLoop, hc]
      · have e : splitLoop (c :: ' ' :: l') tmp [] = splitLoop l' [] ([] ++ [tmp ++ [c]]) := by
          simp [splitLoop, hc]
        rw [List.singleton_append, e, splitLoop_append, splitLoop_space]
        simp
    | cons d ds =>
      have e : splitLoop ((c :: d :: ds) ++ l) tmp [] = splitLoop ((d :: ds) ++ l) (tmp ++ [c]) [] := by
        rw [List.cons_append, splitLoop]; simp [hc]
      rw [e, ih _ (by simp) hcs]
      simp

/-- `split` finds the words of every line. -/
theorem split_of_words {l : List Char} {ws : List (List Char)} (h : Words l ws) : split l = ws := by
  unfold split
  induction h with
  | nil => rfl
  | space _ ih => rw [splitLoop_space, ih]
  | word hw hs hl _ ih => rw [splitLoop_word _ _ _ hw hs hl, ih]; rfl

theorem words_exists (l : List Char) : ∃ ws, Words l ws := by
  induction h : l.length using Nat.strongRecOn generalizing l with
  | _ n ih =>
    subst h
    match l with
    | [] => exact ⟨[], .nil⟩
    | c :: cs =>
      by_cases hc : c = ' '
      · subst hc
        obtain ⟨ws, h⟩ := ih _ (by simp) cs rfl
        exact ⟨ws, .space h⟩
      · have e : (c :: cs).takeWhile (· != ' ') ++ (c :: cs).dropWhile (· != ' ') = c :: cs :=
          List.takeWhile_append_dropWhile
        have hlen : ((c :: cs).dropWhile (· != ' ')).length < (c :: cs).length := by
          simp only [List.dropWhile_cons, bne_iff_ne, ne_eq, hc, not_false_eq_true, if_true]
          exact Nat.lt_of_le_of_lt (List.dropWhile_sublist _).length_le (by simp)
        obtain ⟨ws, h⟩ := ih _ hlen _ rfl
        refine ⟨(c :: cs).takeWhile (· != ' ') :: ws, ?_⟩
        rw [← congrArg (fun x => Words x _) e]
        refine .word (w := (c :: cs).takeWhile (· != ' ')) (by simp [hc]) ?_ ?_ h
        · intro hmem
          have := List.mem_takeWhile_imp hmem
          simp at this
        · cases hd : (c :: cs).dropWhile (· != ' ') with
          | nil => exact Or.inl rfl
          | cons x xs =>
            have := List.head?_dropWhile_not (· != ' ') (c :: cs)
            rw [hd] at this
            simp at this
            exact Or.inr ⟨xs, by rw [this]⟩

/-- `Words` describes exactly what `split` computes. -/
theorem words_iff (l : List Char) (ws : List (List Char)) : Words l ws ↔ split l = ws := by
  refine ⟨split_of_words, ?_⟩
  rintro rfl
  obtain ⟨ws, h⟩ := words_exists l
  rw [split_of_words h]; exact h

/-! ## First word and rest of a line -/

theorem dropWhile_decomp (p : Char → Bool) (l : List Char) :
    ∃ pre, l = pre ++ l.dropWhile p ∧ (∀ c ∈ pre, p c = true) ∧
      ∀ c ∈ (l.dropWhile p).head?, p c = false := by
  refine ⟨l.takeWhile p, List.takeWhile_append_dropWhile.symm, ?_, ?_⟩
  · intro c hc; exact List.mem_takeWhile_imp hc
  · intro c hc
    have := List.head?_dropWhile_not p l
    rw [Option.mem_def] at hc
    rw [hc] at this
    simpa using this

theorem firstToken_spec (l : List Char) : ∃ pre rest, l = pre ++ firstToken l ++ rest ∧
    (∀ c ∈ pre, isSpace c = true) ∧ (∀ c ∈ firstToken l, isSpace c = false) ∧
    (∀ c ∈ rest.head?, isSpace c = true) ∧ (firstToken l = [] → rest = []) := by
  obtain ⟨pre, h1, h2, h3⟩ := dropWhile_decomp isSpace l
  refine ⟨pre, (l.dropWhile isSpace).dropWhile (fun c => !isSpace c), ?_, h2, ?_, ?_, ?_⟩
  · rw [List.append_assoc, firstToken, List.takeWhile_append_dropWhile]; exact h1
  · intro c hc
    have := List.mem_takeWhile_imp hc
    simpa using this
  · obtain ⟨-, -, -, h⟩ := dropWhile_decomp (fun c => !isSpace c) (l.dropWhile isSpace)
    intro c hc
    have := h c hc
    simpa using this
  · intro he
    unfold firstToken at he
    cases hd : l.dropWhile isSpace with
    | nil => rfl
    | cons c cs =>
      rw [hd] at h3 he
      have := h3 c (by simp)
      simp [this] at he

theorem trimEnd_decomp (l : List Char) : ∃ post, l = trimEnd l ++ post ∧
    (∀ c ∈ post, isBlank c = true) ∧ ∀ c ∈ (trimEnd l).getLast?, isBlank c = false := by
  obtain ⟨pre, h1, h2, h3⟩ := dropWhile_decomp isBlank l.reverse
  refine ⟨pre.reverse, ?_, ?_, ?_⟩
  · unfold trimEnd; rw [← List.reverse_append, ← h1, List.reverse_reverse]
  · simpa using h2
  · unfold trimEnd; simpa using h3

theorem trimEnd_head (l : List Char) (h : ∀ c ∈ l.head?, isBlank c = false) :
    ∀ c ∈ (trimEnd l).head?, isBlank c = false := by
  obtain ⟨post, h1, -, -⟩ := trimEnd_decomp l
  intro c hc
  cases ht : trimEnd l with
  | nil => simp [ht] at hc
  | cons d ds =>
    rw [ht] at hc h1
    simp at hc
    subst hc
    exact h d (by rw [h1]; simp)

theorem tail_spec (l : List Char) : ∃ pre w sep post, l = pre ++ w ++ sep ++ tail l ++ post ∧
    (∀ c ∈ pre, isBlank c = true) ∧ (∀ c ∈ w, isBlank c = false) ∧
    (∀ c ∈ sep, isBlank c = true) ∧ (∀ c ∈ post, isBlank c = true) ∧
    (∀ c ∈ (tail l).head?, isBlank c = false) ∧ (∀ c ∈ (tail l).getLast?, isBlank c = false) ∧
    (tail l ≠ [] → w ≠ [] ∧ sep ≠ []) := by
  obtain ⟨pre, h1, h2, h3⟩ := dropWhile_decomp isBlank l
  obtain ⟨w, k1, k2, k3⟩ := dropWhile_decomp (fun c => !isBlank c) (l.dropWhile isBlank)
  obtain ⟨sep, j1, j2, j3⟩ := dropWhile_decomp isBlank
    ((l.dropWhile isBlank).dropWhile fun c => !isBlank c)
  obtain ⟨post, i1, i2, i3⟩ := trimEnd_decomp
    (((l.dropWhile isBlank).dropWhile fun c => !isBlank c).dropWhile isBlank)
  refine ⟨pre, w, sep, post, ?_, h2, ?_, j2, i2, trimEnd_head _ j3, i3, ?_⟩
  · conv_lhs => rw [h1, k1, j1, i1]
    simp [tail]
  · intro c hc; simpa using k2 c hc
  · intro hne
    have hd2 : ((l.dropWhile isBlank).dropWhile fun c => !isBlank c).dropWhile isBlank ≠ [] := by
      intro h; rw [tail, h] at hne; exact hne rfl
    constructor
    · rintro rfl
      -- no first word: the rest starts with a non-blank and with a blank
      simp at k1
      rw [← k1] at hd2 k3
      cases hd : l.dropWhile isBlank with
      | nil => rw [hd] at hd2; simp at hd2
      | cons c cs =>
        rw [hd] at h3 k3
        have a := h3 c (by simp); have b := k3 c (by simp)
        simp [a] at b
    · rintro rfl
      simp at j1
      rw [← j1] at j3 hd2
      cases hd : (l.dropWhile isBlank).dropWhile fun c => !isBlank c with
      | nil => rw [hd] at hd2; exact hd2 rfl
      | cons c cs =>
        rw [hd] at j3 k3
        have a := j3 c (by simp); have b := k3 c (by simp)
        simp [a] at b

/-! ## Clean lines -/

theorem isSpace_clean {l : List Char} (h : Clean l) {c : Char} (hc : c ∈ l) :
    isSpace c = (c == ' ') := by
  obtain ⟨h1, h2, h3⟩ := h c hc
  simp [isSpace, beq_eq_false_iff_ne.mpr h1, beq_eq_false_iff_ne.mpr h2, beq_eq_false_iff_ne.mpr h3]

theorem isBlank_clean {l : List Char} (h : Clean l) {c : Char} (hc : c ∈ l) :
    isBlank c = (c == ' ') := by
  obtain ⟨h1, -, -⟩ := h c hc
  simp [isBlank, beq_eq_false_iff_ne.mpr h1]

theorem Clean.of_append_left {l k : List Char} (h : Clean (l ++ k)) : Clean l :=
  fun c hc => h c (by simp [hc])
theorem Clean.of_append_right {l k : List Char} (h : Clean (l ++ k)) : Clean k :=
  fun c hc => h c (by simp [hc])

theorem words_append_spaces {l : List Char} {ws : List (List Char)} (h : Words l ws)
    (k : List Char) (hk : ∀ c ∈ k, c = ' ') : Words (l ++ k) ws := by
  induction h with
  | nil =>
    induction k with
    | nil => exact .nil
    | cons c k ih =>
      have := hk c (by simp)
      subst this
      exact .space (ih fun c hc => hk c (by simp [hc]))
  | space _ ih => exact .space ih
  | word hw hs hl _ ih =>
    rw [List.append_assoc]
    refine .word hw hs ?_ ih
    rcases hl with rfl | ⟨l', rfl⟩
    · cases k with
      | nil => exact Or.inl rfl
      | cons c k =>
        have := hk c (by simp)
        subst this
        exact Or.inr ⟨k, rfl⟩
    · exact Or.inr ⟨l' ++ k, rfl⟩

theorem words_trimEnd {l : List Char} {ws : List (List Char)} (hc : Clean l) (h : Words l ws) :
    Words (trimEnd l) ws := by
  obtain ⟨post, h1, h2, -⟩ := trimEnd_decomp l
  obtain ⟨ws', hw⟩ := words_exists (trimEnd l)
  have hpost : ∀ c ∈ post, c = ' ' := by
    intro c hcm
    have := h2 c hcm
    rw [isBlank_clean hc (by rw [h1]; simp [hcm])] at this
    simpa using this
  have := words_append_spaces hw post hpost
  rw [← h1] at this
  rw [← split_of_words h, split_of_words this]; exact hw

theorem takeWhile_append_stop (p : Char → Bool) (w l : List Char) (hw : ∀ c ∈ w, p c = true)
    (hl : ∀ c ∈ l.head?, p c = false) : (w ++ l).takeWhile p = w ∧ (w ++ l).dropWhile p = l := by
  induction w with
  | nil =>
    cases l with
    | nil => simp
    | cons c cs => simp [hl c (by simp)]
  | cons c cs ih =>
    have h := ih fun d hd => hw d (by simp [hd])
    simp [hw c (by simp), h.1, h.2]

/-- First word and rest of a clean line. -/
theorem words_first_tail {l : List Char} {w : List Char} {ws : List (List Char)} (hc : Clean l)
    (h : Words l (w :: ws)) : firstToken l = w ∧ Words (tail l) ws := by
  generalize hk : w :: ws = k at h
  induction h with
  | nil => cases hk
  | @space l ws' h ih =>
    have hc' : Clean l := fun c hcm => hc c (by simp [hcm])
    obtain ⟨h1, h2⟩ := ih hc' hk
    refine ⟨?_, ?_⟩
    · rw [← h1]; simp [firstToken, isSpace]
    · have : tail (' ' :: l) = tail l := by simp [tail, isBlank]
      rw [this]; exact h2
  | @word w' l ws' hw hs hl h ih =>
    cases hk
    have hcl : Clean l := Clean.of_append_right hc
    have hns : ∀ c ∈ w, isSpace c = false := by
      intro c hcm
      rw [isSpace_clean hc (by simp [hcm])]
      have : c ≠ ' ' := by rintro rfl; exact hs hcm
      simpa using this
    have hnb : ∀ c ∈ w, isBlank c = false := by
      intro c hcm
      rw [isBlank_clean hc (by simp [hcm])]
      have : c ≠ ' ' := by rintro rfl; exact hs hcm
      simpa using this
    have hl1 : ∀ c ∈ l.head?, (!isSpace c) = false := by
      rcases hl with rfl | ⟨l', rfl⟩ <;> simp [isSpace]
    have hl2 : ∀ c ∈ l.head?, (!isBlank c) = false := by
      rcases hl with rfl | ⟨l', rfl⟩ <;> simp [isBlank]
    have d1 : (w ++ l).dropWhile isSpace = w ++ l := by
      cases w with
      | nil => exact absurd rfl hw
      | cons c cs => simp [hns c (by simp)]
    have d2 : (w ++ l).dropWhile isBlank = w ++ l := by
      cases w with
      | nil => exact absurd rfl hw
      | cons c cs => simp [hnb c (by simp)]
    refine ⟨?_, ?_⟩
    · rw [firstToken, d1]
      exact (takeWhile_append_stop _ w l (by simpa using hns) hl1).1
    · rw [tail, d2, (takeWhile_append_stop _ w l (by simpa using hnb) hl2).2]
      have hsub : Clean (l.dropWhile isBlank) :=
        fun c hcm => hcl c ((List.dropWhile_sublist _).subset hcm)
      refine words_trimEnd hsub ?_
      clear ih hl1 hl2 d1 d2 hc hl hs hw
      induction h with
      | nil => simpa using .nil
      | @space l ws h ih =>
        have : (' ' :: l).dropWhile isBlank = l.dropWhile isBlank := by simp [isBlank]
        rw [this]
        exact ih (fun c hcm => hcl c (by simp [hcm])) (by
          intro c hcm; exact hsub c (by rw [this]; exact hcm))
      | @word w l ws hw hs hl h ih =>
        have : (w ++ l).dropWhile isBlank = w ++ l := by
          cases w with
          | nil => exact absurd rfl hw
          | cons c cs =>
            have hne : c ≠ ' ' := by rintro rfl; simp at hs
            have := isBlank_clean hcl (c := c) (by simp)
            simp [this, hne]
        rw [this]
        exact .word hw hs hl h

theorem firstToken_blank {l : List Char} (h : Blank l) : firstToken l = [] := by
  unfold firstToken
  have : l.dropWhile isSpace = [] := by
    rw [List.dropWhile_eq_nil_iff]
    intro c hc
    rcases h c hc with rfl | rfl | rfl | rfl <;> rfl
  rw [this]; rfl

end Text
end Enve
