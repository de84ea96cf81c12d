/-!
# Bytes, tokens and the Rust standard library functions the crate calls

Nothing in this file models code of the repository itself.  It fixes how the
strings of the program are represented and models the functions of Rust's
standard library on which the parsers depend.  These definitions are part of
the trusted base.
-/

namespace Verif

/-- A Rust `&[u8]`, and also a Rust `&str`/`String` seen as its bytes (comparison
of Rust strings is comparison of their bytes). -/
abbrev Bytes := List UInt8

/-- A token, as handed out by the lexer: a non-empty slice of the input. -/
abbrev Tok := Bytes

/-- `b!"abc"` is the explicit list of the bytes of an ASCII string literal. -/
syntax:max "b!" str : term

open Lean in
macro_rules
  | `(b! $s:str) => do
    let bytes := s.getString.toUTF8.toList
    let mut acc : TSyntax `term ← `(([] : Bytes))
    for b in bytes.reverse do
      acc ← `(List.cons ($(quote b.toNat) : UInt8) $acc)
    return acc

/-- The newline token `"\n"`. -/
abbrev nl : Tok := [10]

/-! ## Numbers -/

/-- ASCII decimal digit. -/
def isDigit (c : UInt8) : Bool := decide (48 ≤ c.toNat ∧ c.toNat ≤ 57)

/-- The value of a string of decimal digits. -/
def digitsVal (ds : Bytes) : Nat := ds.foldl (fun n c => 10 * n + (c.toNat - 48)) 0

/-- One or more decimal digits. -/
def parseDigits (ds : Bytes) : Option Nat :=
  if ds ≠ [] ∧ ds.all isDigit = true then some (digitsVal ds) else none

/-- `isize::MIN` and `isize::MAX` on a 64-bit target. -/
def isizeMin : Int := -(2 ^ 63)
def isizeMax : Int := 2 ^ 63 - 1
/-- `usize::MAX` on a 64-bit target. -/
def usizeMax : Nat := 2 ^ 64 - 1

/-- `str::parse::<isize>()` (Rust std, `from_str_radix` with radix 10):
an optional `+` or `-`, then at least one ASCII digit and nothing else, and the
value must be representable. Errors are collapsed to `none`, as the crate does. -/
def parseIsize (t : Bytes) : Option Int :=
  let signed : Bool × Bytes :=
    match t with
    | 43 :: r => (false, r)
    | 45 :: r => (true, r)
    | _ => (false, t)
  match parseDigits signed.2 with
  | none => none
  | some n =>
    let v : Int := if signed.1 then -(n : Int) else (n : Int)
    if isizeMin ≤ v ∧ v ≤ isizeMax then some v else none

/-- `str::parse::<usize>()`: an optional `+` (a `-` is an invalid digit for
unsigned types), at least one ASCII digit, and the value must be representable. -/
def parseUsize (t : Bytes) : Option Nat :=
  let ds : Bytes := match t with
    | 43 :: r => r
    | _ => t
  match parseDigits ds with
  | none => none
  | some n => if n ≤ usizeMax then some n else none

/-- Decimal printing with fuel; digits are accumulated in front of `acc`. -/
def showNatAux : Nat → Nat → Bytes → Bytes
  | 0, _, acc => acc
  | fuel + 1, n, acc =>
    let acc' := UInt8.ofNat (48 + n % 10) :: acc
    if n < 10 then acc' else showNatAux fuel (n / 10) acc'

/-- `format!("{}", n)` for `n : usize`. -/
def showNat (n : Nat) : Bytes := showNatAux (n + 1) n []

/-- `format!("{}", i)` for `i : isize`. -/
def showInt (i : Int) : Bytes :=
  if i < 0 then 45 :: showNat i.natAbs else showNat i.natAbs

/-! ## Floating point

The crate only ever applies `str::parse::<f64>()` to a token and stores the
result, so the model needs to know *which* tokens are accepted, and treats the
value as an uninterpreted function of the token. -/

/-- Drop an optional sign. -/
def dropSign : Bytes → Bytes
  | 43 :: r => r
  | 45 :: r => r
  | r => r

/-- ASCII lower case. -/
def lower (c : UInt8) : UInt8 := if 65 ≤ c.toNat ∧ c.toNat ≤ 90 then c + 32 else c

/-- `Exp`, after the letter: `Sign? Digit+`. -/
def isExpTail (r : Bytes) : Bool :=
  let ds := dropSign r
  !ds.isEmpty && ds.all isDigit

/-- `Number ::= (Digit+ | Digit+ '.' Digit* | Digit* '.' Digit+) Exp?` -/
def isFloatNumber (s : Bytes) : Bool :=
  let i := s.takeWhile isDigit
  let r := s.dropWhile isDigit
  let f := match r with | 46 :: r' => r'.takeWhile isDigit | _ => []
  let r2 := match r with | 46 :: r' => r'.dropWhile isDigit | _ => r
  (!i.isEmpty || !f.isEmpty) &&
    (match r2 with
     | [] => true
     | c :: r3 => (c == 101 || c == 69) && isExpTail r3)

/-- The strings accepted by `str::parse::<f64>()` (Rust std, `core::num::dec2flt`):
`Float ::= Sign? ( 'inf' | 'infinity' | 'nan' | Number )`, the words in any case. -/
def isFloat (t : Bytes) : Bool :=
  let s := dropSign t
  isFloatNumber s ||
    (s.map lower == b!"inf" || s.map lower == b!"infinity" || s.map lower == b!"nan")

/-- What the model needs of the type `f64`: the value of an accepted token and
the literals `0_f64` and `1_f64`. All theorems hold for every choice of these. -/
class FloatSem (F : Type) where
  value : Bytes → F
  zero : F
  one : F

/-- `str::parse::<f64>().ok()`. -/
def parseF64 {F : Type} [FloatSem F] (t : Bytes) : Option F :=
  if isFloat t then some (FloatSem.value t) else none

/-! ## `str::split('/')` -/

/-- `str::split(c)` for an ASCII character `c`: always at least one piece. -/
def splitByte (c : UInt8) : Bytes → List Bytes
  | [] => [[]]
  | x :: xs =>
    if x = c then [] :: splitByte c xs
    else
      match splitByte c xs with
      | [] => [[x]]
      | p :: ps => (x :: p) :: ps

end Verif
