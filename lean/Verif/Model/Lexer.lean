import Verif.Basic

/-!
# Model of `src/lexer.rs`

Field for field and function for function.  The byte slice `&'a [u8]` is a list
of bytes; a token (`&'a [u8]`, later `&'a str` through `from_utf8_unchecked`) is
the list of its bytes.  That the unchecked conversion is sound is theorem
`Props.C02`.  A method on `&mut self` returns the new state.
-/

namespace Verif

/-- `struct Lexer<'a>` (lexer.rs:6-13). -/
structure Lexer where
  /-- `current_line_number` (lexer.rs:8) -/
  current_line_number : Nat
  /-- `stream_position` (lexer.rs:10) -/
  stream_position : Nat
  /-- `stream` (lexer.rs:12) -/
  stream : Bytes
deriving DecidableEq, Repr

/-- `fn is_whitespace` (lexer.rs:15-18): `' '`, `'\\'`, `'\t'`. -/
def is_whitespace (ch : UInt8) : Bool := ch == 32 || ch == 92 || ch == 9

/-- `fn is_newline` (lexer.rs:20-23): `'\n'`, `'\r'`. -/
def is_newline (ch : UInt8) : Bool := ch == 10 || ch == 13

/-- `fn is_whitespace_or_newline` (lexer.rs:25-28). -/
def is_whitespace_or_newline (ch : UInt8) : Bool := is_whitespace ch || is_newline ch

namespace Lexer

/-- `Lexer::new` (lexer.rs:31-38). -/
def new (stream : Bytes) : Lexer :=
  { current_line_number := 1, stream_position := 0, stream := stream }

/-- `Lexer::peek` (lexer.rs:40-45). -/
def peek (s : Lexer) : Option UInt8 := s.stream[s.stream_position]?

/-- `Lexer::advance` (lexer.rs:47-56). -/
def advance (s : Lexer) : Lexer :=
  let line := match s.peek with
    | some ch => if is_newline ch then s.current_line_number + 1 else s.current_line_number
    | none => s.current_line_number
  { s with current_line_number := line, stream_position := s.stream_position + 1 }

/-- The loop of `Lexer::skip_while` (lexer.rs:62-77), with the number of
iterations bounded by `fuel`. -/
def skip_while_loop (predicate : UInt8 → Bool) : Nat → Nat → Lexer → Nat × Lexer
  | 0, skipped, s => (skipped, s)
  | fuel + 1, skipped, s =>
    match s.peek with
    | some ch =>
      if predicate ch then skip_while_loop predicate fuel (skipped + 1) s.advance
      else (skipped, s)
    | none => (skipped, s)

/-- `Lexer::skip_while` (lexer.rs:58-77). The bound is the number of bytes left;
`skip_while_exit` shows that the loop is always left through its `break`. -/
def skip_while (predicate : UInt8 → Bool) (s : Lexer) : Nat × Lexer :=
  skip_while_loop predicate (s.stream.length - s.stream_position) 0 s

/-- `Lexer::skip_unless` (lexer.rs:79-87). -/
def skip_unless (not_predicate : UInt8 → Bool) (s : Lexer) : Nat × Lexer :=
  s.skip_while (fun ch => !not_predicate ch)

/-- `Lexer::skip_comment` (lexer.rs:89-98). `b'#'` is 35. -/
def skip_comment (s : Lexer) : Nat × Lexer :=
  match s.peek with
  | some ch => if ch = 35 then s.skip_unless is_newline else (0, s)
  | none => (0, s)

/-- `Lexer::skip_whitespace` (lexer.rs:100-105). -/
def skip_whitespace (s : Lexer) : Nat × Lexer := s.skip_while is_whitespace

/-- `self.stream.get(start..end)` : the slice, or `None` when the range is not
inside the stream. -/
def slice (s : Lexer) (start stop : Nat) : Option Bytes :=
  if start ≤ stop ∧ stop ≤ s.stream.length then
    some ((s.stream.drop start).take (stop - start))
  else none

/-- `Lexer::next_token` (lexer.rs:107-131). -/
def next_token (s : Lexer) : Option Tok × Lexer :=
  let s := s.skip_whitespace.2
  let s := s.skip_comment.2
  let start_position := s.stream_position
  match s.peek with
  | some ch =>
    if is_newline ch then
      let s := s.advance
      (s.slice start_position s.stream_position, s)
    else
      let r := s.skip_unless (fun ch => is_whitespace_or_newline ch || ch == 35)
      if r.1 > 0 then (r.2.slice start_position r.2.stream_position, r.2)
      else (none, r.2)
  | none => (none, s)

end Lexer

/-- `struct PeekableLexer<'a>` (lexer.rs:142-150). -/
structure PeekableLexer where
  /-- `inner` (lexer.rs:147) -/
  inner : Lexer
  /-- `cache` (lexer.rs:149) -/
  cache : Option (Option Tok)
deriving DecidableEq, Repr

namespace PeekableLexer

/-- `PeekableLexer::new` (lexer.rs:153-159). -/
def new (lexer : Lexer) : PeekableLexer := { inner := lexer, cache := none }

/-- `PeekableLexer::next_token` (lexer.rs:161-172) and `Iterator::next`
(lexer.rs:193-199). `Option::take` empties the cache. -/
def next_token (s : PeekableLexer) : Option Tok × PeekableLexer :=
  match s.cache with
  | some token => (token, { s with cache := none })
  | none =>
    let r := s.inner.next_token
    (r.1, { inner := r.2, cache := none })

/-- `PeekableLexer::peek` (lexer.rs:174-190). -/
def peek (s : PeekableLexer) : Option Tok × PeekableLexer :=
  match s.cache with
  | some token => (token, s)
  | none =>
    let r := s.inner.next_token
    (r.1, { inner := r.2, cache := some r.1 })

end PeekableLexer

end Verif
