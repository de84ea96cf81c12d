import Verif.Basic

/-!
# Specification of tokenisation

Independent of the lexer model: split the text into lines, cut comments off,
split what is left into words.  Written over an arbitrary alphabet `α` so that
the same specification can be read over bytes and over Unicode characters.
-/

namespace Verif.Spec

/-- The classes of symbols that matter to tokenisation. -/
structure Alphabet (α : Type) where
  /-- separates words -/
  blank : α → Bool
  /-- ends a line -/
  eol : α → Bool
  /-- starts a comment -/
  hash : α → Bool

/-- The lines of a text, each with its terminator; the last line has none. -/
def lines {α : Type} (A : Alphabet α) : List α → List (List α × Option α)
  | [] => [([], none)]
  | c :: r =>
    if A.eol c then ([], some c) :: lines A r
    else
      match lines A r with
      | [] => [([c], none)]
      | (l, t) :: more => (c :: l, t) :: more

/-- The part of a line before a comment. -/
def stripComment {α : Type} (A : Alphabet α) (l : List α) : List α :=
  l.takeWhile fun c => !A.hash c

/-- Cut at every symbol satisfying `p`; the symbols cut at are dropped. -/
def cut {α : Type} (p : α → Bool) : List α → List (List α)
  | [] => [[]]
  | c :: r =>
    if p c then [] :: cut p r
    else
      match cut p r with
      | [] => [[c]]
      | w :: ws => (c :: w) :: ws

/-- The words of a line: the non-empty pieces between blanks. -/
def words {α : Type} (A : Alphabet α) (l : List α) : List (List α) :=
  (cut A.blank l).filter fun w => !w.isEmpty

/-- The tokens of one line. -/
def lineTokens {α : Type} (A : Alphabet α) (l : List α × Option α) : List (List α) :=
  words A (stripComment A l.1) ++ l.2.toList.map fun c => [c]

/-- The tokens of a text. -/
def tokensOf {α : Type} (A : Alphabet α) (text : List α) : List (List α) :=
  (lines A text).flatMap (lineTokens A)

/-- Space, tab and backslash are blanks; LF and CR end lines; `#` starts a comment. -/
def byteAlphabet : Alphabet UInt8 where
  blank c := c == 32 || c == 9 || c == 92
  eol c := c == 10 || c == 13
  hash c := c == 35

/-- The tokens of a byte string. -/
def tokens (text : Bytes) : List Tok := tokensOf byteAlphabet text

/-- The same alphabet over Unicode characters. -/
def charAlphabet : Alphabet Char where
  blank c := c == ' ' || c == '\t' || c == '\\'
  eol c := c == '\n' || c == '\r'
  hash c := c == '#'

end Verif.Spec
