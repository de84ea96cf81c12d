import Verif.Model.Lexer

/-!
# The machinery shared by the models of `obj::Parser` and `mtl::Parser`

Both Rust parsers consist of a line number and a `PeekableLexer`, with the same
private methods `peek`, `next`, `advance`, `error`.  The model is generic over
the token source so that the same definitions can also be run on a list of
tokens in the proofs; the model of the crate is the instance at `PeekableLexer`.
-/

namespace Verif

/-- `struct ParseError` (obj.rs:627-635, mtl.rs:239-247); `K` is the `ErrorKind`
of the parser at hand. -/
structure ParseError (K : Type) where
  line_number : Nat
  kind : K
  message : Bytes
deriving DecidableEq, Repr

/-- The places where the Rust code can panic. -/
inductive PanicSite where
  /-- `max_value as isize - parsed_value` overflows (obj.rs:884), in builds with overflow checks. -/
  | indexSubOverflow
  /-- `debug_assert!(actual_value >= 0)` (obj.rs:890). -/
  | indexNegative
  /-- slice index or length underflow in `triangulate` (obj.rs:678-683). -/
  | triangulate
  /-- slice index or length underflow in `parse_line` (obj.rs:1061-1065). -/
  | lineSegments
  /-- `debug_assert!(shape_entry_table.len() == elements.len())` (obj.rs:1230, 1237). -/
  | shapeCount
  /-- `shape_entry_table[i]` out of bounds (obj.rs:1234). -/
  | shapeIndex
  /-- `material_names[material_name_index]` out of bounds (obj.rs:1249). -/
  | materialIndex
  /-- An addition of `usize` counters overflows, in builds with overflow checks (only in
  `Model/Checked.lean`). -/
  | addOverflow
deriving DecidableEq, Repr

/-- The outcome of running a piece of the program. `outOfFuel` marks a loop that
was cut off by the model; it is proved never to happen. -/
inductive Out (K α : Type) where
  | ok (a : α)
  | err (e : ParseError K)
  | panic (site : PanicSite)
  | outOfFuel
deriving DecidableEq, Repr

/-- A source of tokens with one token of lookahead. -/
class TokStream (σ : Type) where
  peek : σ → Option Tok × σ
  next : σ → Option Tok × σ

/-- The token source of the crate: `PeekableLexer` (lexer.rs:142-199). -/
instance : TokStream PeekableLexer where
  peek := PeekableLexer.peek
  next := PeekableLexer.next_token

/-- `struct Parser<'a>` (obj.rs:663-669, mtl.rs:274-279). -/
structure PState (σ : Type) where
  line_number : Nat
  lexer : σ
deriving DecidableEq, Repr

/-- A method of the parser: it maps the parser state to an outcome and the new
state. The state is also returned with an `Err`, since `&mut self` keeps its
changes. -/
def P (σ K α : Type) : Type := PState σ → Out K α × PState σ

namespace P

variable {σ K α β : Type}

/-- A method that returns `Ok(a)` without touching the state. -/
def pure (a : α) : P σ K α := fun s => (.ok a, s)

/-- Sequencing with Rust's `?`: an `Err` (or a panic) ends the method. -/
def bind (p : P σ K α) (f : α → P σ K β) : P σ K β := fun s =>
  match p s with
  | (.ok a, s') => f a s'
  | (.err e, s') => (.err e, s')
  | (.panic x, s') => (.panic x, s')
  | (.outOfFuel, s') => (.outOfFuel, s')

instance : Monad (P σ K) where
  pure := P.pure
  bind := P.bind

/-- A panic. -/
def panic (x : PanicSite) : P σ K α := fun s => (.panic x, s)

/-- A loop cut off by the model. -/
def outOfFuel : P σ K α := fun s => (.outOfFuel, s)

/-- Lift an outcome that does not depend on the state. -/
def lift (o : Out K α) : P σ K α := fun s => (o, s)

/-- `Parser::error` (obj.rs:707-710, mtl.rs:290-293). -/
def error (kind : K) (message : Bytes) : P σ K α := fun s =>
  (.err { line_number := s.line_number, kind := kind, message := message }, s)

/-- Run a method and keep its `Result` as a value, without `?`. A panic still
ends everything. -/
def attempt (p : P σ K α) : P σ K (Except (ParseError K) α) := fun s =>
  match p s with
  | (.ok a, s') => (.ok (.ok a), s')
  | (.err e, s') => (.ok (.error e), s')
  | (.panic x, s') => (.panic x, s')
  | (.outOfFuel, s') => (.outOfFuel, s')

/-- Return a `Result` value. -/
def ofResult : Except (ParseError K) α → P σ K α
  | .ok a => fun s => (.ok a, s)
  | .error e => fun s => (.err e, s)

variable [TokStream σ]

/-- `Parser::peek` (obj.rs:712-715, mtl.rs:295-298). -/
def peek : P σ K (Option Tok) := fun s =>
  let r := TokStream.peek s.lexer
  (.ok r.1, { s with lexer := r.2 })

/-- `Parser::next` (obj.rs:717-727, mtl.rs:300-310). -/
def next : P σ K (Option Tok) := fun s =>
  let r := TokStream.next s.lexer
  let line := match r.1 with
    | some val => if val = nl then s.line_number + 1 else s.line_number
    | none => s.line_number
  (.ok r.1, { line_number := line, lexer := r.2 })

/-- `Parser::advance` (obj.rs:729-732, mtl.rs:312-315). -/
def advance : P σ K Unit := do
  let _ ← next
  return ()

/-- `Parser::skip_zero_or_more_newlines` (obj.rs:850-855, mtl.rs:346-351). -/
def skip_zero_or_more_newlines : Nat → P σ K Unit
  | 0 => outOfFuel
  | fuel + 1 => do
    match ← peek with
    | some st => if st = nl then do advance; skip_zero_or_more_newlines fuel else return ()
    | none => return ()

end P

end Verif
