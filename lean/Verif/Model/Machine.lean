import Verif.Model.Parser

/-!
# The lexer and the line counters with machine arithmetic

`Model/Lexer.lean` and `Model/Parser.lean` count positions and lines with natural
numbers. Here the same functions are written with additions of an unsigned machine
type with a largest value (`usize::MAX` in the code); `none` stands for an addition that does not fit. `Machine.Stream` is a token
source that uses this lexer, keeps its own copy of the parser's line counter, and
remembers in a flag whether any addition ever failed to fit. Theorem C40 shows that
parsing with this source gives the same outcome and never raises the flag.
-/

namespace Verif.Machine

/-- `a + b` on an unsigned type with the given largest value, if it fits. -/
def cadd (limit a b : Nat) : Option Nat := if a + b ≤ limit then some (a + b) else none

/-- `Lexer::advance` (lexer.rs:47-56). -/
def advance (limit : Nat) (s : Lexer) : Option Lexer := do
  let line ← match s.peek with
    | some ch => if is_newline ch then cadd limit s.current_line_number 1 else some s.current_line_number
    | none => some s.current_line_number
  let pos ← cadd limit s.stream_position 1
  return { s with current_line_number := line, stream_position := pos }

/-- The loop of `Lexer::skip_while` (lexer.rs:62-77). -/
def skip_while_loop (limit : Nat) (predicate : UInt8 → Bool) : Nat → Nat → Lexer → Option (Nat × Lexer)
  | 0, skipped, s => some (skipped, s)
  | fuel + 1, skipped, s =>
    match s.peek with
    | some ch =>
      if predicate ch then do
        let s ← advance limit s
        let skipped ← cadd limit skipped 1
        skip_while_loop limit predicate fuel skipped s
      else some (skipped, s)
    | none => some (skipped, s)

/-- `Lexer::skip_while` (lexer.rs:58-77). -/
def skip_while (limit : Nat) (predicate : UInt8 → Bool) (s : Lexer) : Option (Nat × Lexer) :=
  skip_while_loop limit predicate (s.stream.length - s.stream_position) 0 s

/-- `Lexer::skip_unless` (lexer.rs:79-87). -/
def skip_unless (limit : Nat) (not_predicate : UInt8 → Bool) (s : Lexer) : Option (Nat × Lexer) :=
  skip_while limit (fun ch => !not_predicate ch) s

/-- `Lexer::skip_comment` (lexer.rs:89-98). -/
def skip_comment (limit : Nat) (s : Lexer) : Option (Nat × Lexer) :=
  match s.peek with
  | some ch => if ch = 35 then skip_unless limit is_newline s else some (0, s)
  | none => some (0, s)

/-- `Lexer::next_token` (lexer.rs:107-131). -/
def next_token (limit : Nat) (s : Lexer) : Option (Option Tok × Lexer) := do
  let r ← skip_while limit is_whitespace s
  let r ← skip_comment limit r.2
  let s := r.2
  let start_position := s.stream_position
  match s.peek with
  | some ch =>
    if is_newline ch then do
      let s ← advance limit s
      return (s.slice start_position s.stream_position, s)
    else do
      let r ← skip_unless limit (fun ch => is_whitespace_or_newline ch || ch == 35) s
      if r.1 > 0 then return (r.2.slice start_position r.2.stream_position, r.2)
      else return (none, r.2)
  | none => return (none, s)

/-- The token source: `PeekableLexer`, a copy of the parser's `line_number`, and
whether an addition ever failed to fit. -/
structure Stream where
  /-- The largest value of a counter. -/
  limit : Nat
  lexer : PeekableLexer
  line : Nat
  overflow : Bool
deriving DecidableEq, Repr

/-- The source at the start of a file (obj.rs:699-705, mtl.rs:282-288). -/
def Stream.new (limit : Nat) (input : Bytes) : Stream := ⟨limit, PeekableLexer.new (Lexer.new input), 1, false⟩

/-- `PeekableLexer::peek` (lexer.rs:174-190). -/
def Stream.peek (s : Stream) : Option Tok × Stream :=
  match s.lexer.cache with
  | some token => (token, s)
  | none =>
    match next_token s.limit s.lexer.inner with
    | some r => (r.1, { s with lexer := { inner := r.2, cache := some r.1 } })
    | none => (none, { s with overflow := true })

/-- The addition to `line_number` in `Parser::next` (obj.rs:717-727, mtl.rs:300-310). -/
def Stream.count (token : Option Tok) (s : Stream) : Stream :=
  if token = some nl then
    match cadd s.limit s.line 1 with
    | some line => { s with line := line }
    | none => { s with overflow := true }
  else s

/-- `PeekableLexer::next_token` (lexer.rs:161-172) within `Parser::next`. -/
def Stream.next (s : Stream) : Option Tok × Stream :=
  match s.lexer.cache with
  | some token => (token, ({ s with lexer := { s.lexer with cache := none } }).count token)
  | none =>
    match next_token s.limit s.lexer.inner with
    | some r => (r.1, ({ s with lexer := { inner := r.2, cache := none } }).count r.1)
    | none => (none, { s with overflow := true })

instance : TokStream Stream where
  peek := Stream.peek
  next := Stream.next

end Verif.Machine
