import Verif.Base.Res

/-! # Line handling of the mesh loader: `mesh::split`, `mesh::tail`, `mesh::firstToken`
(`src/mesh.cc:528-603`)

A `std::string` is a list of characters, a file is the list of lines `std::getline` returns. -/

namespace Enve

/-- A line of text. -/
abbrev Line' := List Char

namespace Text

/-- The characters `" \t"` searched for by `mesh::tail`, `mesh.cc:571-574`. -/
def isBlank (c : Char) : Bool := c == ' ' || c == '\t'

/-- The characters `" \t\r\n"` searched for by `mesh::firstToken`, `mesh.cc:592-595`. -/
def isSpace (c : Char) : Bool := c == ' ' || c == '\t' || c == '\r' || c == '\n'

/-- The loop of `mesh::split` (`mesh.cc:538-560`) for the one-character separator `" "`, the only one
used.  `tmp` and `out` are the local string and the output vector; the list argument is the part of
`in` from index `i` on.  `i + 1 >= in.size()` is "no character follows". -/
def splitLoop : List Char → List Char → List (List Char) → List (List Char)
  | [], _, out => out
  | c :: cs, tmp, out =>
    if c == ' ' then
      if tmp.isEmpty then splitLoop cs tmp out else splitLoop cs [] (out ++ [tmp])
    else if cs.isEmpty then out ++ [tmp ++ [c]]
    else splitLoop cs (tmp ++ [c]) out

/-- `mesh::split(in, out, " ")`, `mesh.cc:528-561`. -/
def split (l : List Char) : List (List Char) := splitLoop l [] []

/-- `in.substr(0, find_last_not_of(" \t") + 1)`, the effect of `tail_end` in `mesh.cc:574-576`. -/
def trimEnd (l : List Char) : List Char := (l.reverse.dropWhile isBlank).reverse

/-- `mesh::tail`, `mesh.cc:565-580`.  `token_start` is the first non-blank character, `space_start`
the first blank after it, `tail_start` the first non-blank after that.  When one of the searches
returns `npos` the next one, started at `npos`, returns `npos` too and the result is `""`. -/
def tail (l : List Char) : List Char :=
  trimEnd (((l.dropWhile isBlank).dropWhile fun c => !isBlank c).dropWhile isBlank)

/-- `mesh::firstToken`, `mesh.cc:584-603`. -/
def firstToken (l : List Char) : List Char :=
  (l.dropWhile isSpace).takeWhile fun c => !isSpace c

end Text
end Enve
