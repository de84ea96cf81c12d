import Verif.Model.Parser

/-!
# The lexer with a counter of the bytes it looks at

The functions of `Model/Lexer.lean` again, where every call of `Lexer::peek`, the only function of the lexer
that looks at a byte, is counted.  (`stream.get(a..b)` in `next_token` makes a slice without looking at its
bytes.)
-/

namespace Verif.Reads

/-- `struct Lexer<'a>` (lexer.rs:6-13), and how often `peek` was called. -/
structure Lexer where
  lexer : Verif.Lexer
  reads : Nat

namespace Lexer

/-- `Lexer::peek` (lexer.rs:40-45). -/
def peek (s : Lexer) : Option UInt8 × Lexer := (s.lexer.peek, { s with reads := s.reads + 1 })

/-- `Lexer::advance` (lexer.rs:47-56), which calls `peek` once. -/
def advance (s : Lexer) : Lexer := { lexer := s.lexer.advance, reads := s.peek.2.reads }

/-- The loop of `Lexer::skip_while` (lexer.rs:62-77). -/
def skip_while_loop (predicate : UInt8 → Bool) : Nat → Nat → Lexer → Nat × Lexer
  | 0, skipped, s => (skipped, s)
  | fuel + 1, skipped, s =>
    let r := s.peek
    match r.1 with
    | some ch =>
      if predicate ch then skip_while_loop predicate fuel (skipped + 1) r.2.advance
      else (skipped, r.2)
    | none => (skipped, r.2)

/-- `Lexer::skip_while` (lexer.rs:58-77); with one more iteration than there are bytes left, so that the
`peek` at the end of the text is counted too. -/
def skip_while (predicate : UInt8 → Bool) (s : Lexer) : Nat × Lexer :=
  skip_while_loop predicate (s.lexer.stream.length - s.lexer.stream_position + 1) 0 s

/-- `Lexer::skip_unless` (lexer.rs:79-87). -/
def skip_unless (not_predicate : UInt8 → Bool) (s : Lexer) : Nat × Lexer :=
  s.skip_while (fun ch => !not_predicate ch)

/-- `Lexer::skip_comment` (lexer.rs:89-98). -/
def skip_comment (s : Lexer) : Nat × Lexer :=
  let r := s.peek
  match r.1 with
  | some ch => if ch = 35 then r.2.skip_unless is_newline else (0, r.2)
  | none => (0, r.2)

/-- `Lexer::skip_whitespace` (lexer.rs:100-105). -/
def skip_whitespace (s : Lexer) : Nat × Lexer := s.skip_while is_whitespace

/-- `Lexer::next_token` (lexer.rs:107-131). -/
def next_token (s : Lexer) : Option Tok × Lexer :=
  let s := s.skip_whitespace.2
  let s := s.skip_comment.2
  let start_position := s.lexer.stream_position
  let r := s.peek
  match r.1 with
  | some ch =>
    if is_newline ch then
      let s := r.2.advance
      (s.lexer.slice start_position s.lexer.stream_position, s)
    else
      let q := r.2.skip_unless (fun ch => is_whitespace_or_newline ch || ch == 35)
      if q.1 > 0 then (q.2.lexer.slice start_position q.2.lexer.stream_position, q.2)
      else (none, q.2)
  | none => (none, r.2)

end Lexer

/-- `struct PeekableLexer<'a>` (lexer.rs:142-150). -/
structure PeekableLexer where
  inner : Lexer
  cache : Option (Option Tok)

namespace PeekableLexer

/-- `PeekableLexer::new` of a new `Lexer` (lexer.rs:153-159, 31-38). -/
def new (input : Bytes) : PeekableLexer := { inner := { lexer := Verif.Lexer.new input, reads := 0 }, cache := none }

/-- `PeekableLexer::next_token` (lexer.rs:161-172). -/
def next_token (s : PeekableLexer) : Option Tok × PeekableLexer :=
  match s.cache with
  | some token => (token, { s with cache := none })
  | none =>
    let r := s.inner.next_token
    (r.1, { inner := r.2, cache := none })

/-- `PeekableLexer::peek` (lexer.rs:174-190). -/
def peek (s : PeekableLexer) : Option Tok × PeekableLexer :=
  match s.cache with
  | some token => (token, s)
  | none =>
    let r := s.inner.next_token
    (r.1, { inner := r.2, cache := some r.1 })

end PeekableLexer

instance : TokStream PeekableLexer where
  peek := PeekableLexer.peek
  next := PeekableLexer.next_token

end Verif.Reads
