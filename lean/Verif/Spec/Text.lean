/-! # Words of a line

What "separated by spaces" means, independently of the tokenizer. -/

namespace Enve.Spec

/-- `Words l ws`: the line `l` consists of the words `ws` (non-empty runs without a space), separated,
preceded and followed by spaces only. -/
inductive Words : List Char → List (List Char) → Prop where
  | nil : Words [] []
  | space {l : List Char} {ws : List (List Char)} : Words l ws → Words (' ' :: l) ws
  | word {w l : List Char} {ws : List (List Char)} : w ≠ [] → ' ' ∉ w →
      (l = [] ∨ ∃ l', l = ' ' :: l') → Words l ws → Words (w ++ l) (w :: ws)

/-- The line contains no tab, carriage return or line feed. -/
def Clean (l : List Char) : Prop := ∀ c ∈ l, c ≠ '\t' ∧ c ≠ '\r' ∧ c ≠ '\n'

/-- A line with nothing but blanks. -/
def Blank (l : List Char) : Prop := ∀ c ∈ l, c = ' ' ∨ c = '\t' ∨ c = '\r' ∨ c = '\n'

end Enve.Spec
