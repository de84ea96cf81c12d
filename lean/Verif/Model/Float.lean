import Verif.Model.Compare
import Verif.Model.Display

/-!
# Model of `f64`

The rest of the model leaves `f64` open (`FloatSem`).  This file gives one choice: the numbers of
IEEE 754 binary64, with all NaNs identified, read by `str::parse::<f64>` as its documentation says:
the decimal number is rounded to the nearest representable one, ties to even.  As in `core::num::dec2flt`
no more digits are added to an exponent once it exceeds 65535.  The crate reads
numbers with `str::parse::<f64>` (obj.rs:769, 815, 831, 833, mtl.rs:356), writes them with `{}`
(obj.rs:132-180), and compares them in derived `PartialEq` (obj.rs:119, 140, 158) and `PartialOrd` (mtl.rs:76).
-/

namespace Verif

/-- The bits of infinity, without the sign: exponent field 2047, fraction field 0. -/
def infBits : Nat := 2047 * 2 ^ 52

/-- `f64`: NaN, or a sign bit and the 63 other bits. -/
inductive F64 where
  | nan
  | num (neg : Bool) (bits : Nat) (h : bits ≤ infBits)
deriving DecidableEq

namespace F64

/-- The number with the given bits, as a multiple of 2^-1074: a fraction field `f` with an exponent
field 0 is `f`, with an exponent field `e ≥ 1` it is `(2^52 + f) * 2^(e - 1)`. -/
def units (bits : Nat) : Nat :=
  if bits / 2 ^ 52 = 0 then bits % 2 ^ 52 else (2 ^ 52 + bits % 2 ^ 52) * 2 ^ (bits / 2 ^ 52 - 1)

/-- The bits of the largest number that is at most `k` multiples of 2^-1074: keep the 53 leading bits. -/
def floorBits (k : Nat) : Nat := (Nat.log2 k - 52) * 2 ^ 52 + k / 2 ^ (Nat.log2 k - 52)

/-- The bits of `a / b` multiples of 2^-1074, rounded to nearest, ties to even. -/
def roundBits (a b : Nat) : Nat :=
  let n := floorBits (a / b)
  if infBits ≤ n then infBits
  else if 2 * a < b * (units n + units (n + 1)) ∨ 2 * a = b * (units n + units (n + 1)) ∧ n % 2 = 0 then n
  else n + 1

theorem roundBits_le (a b : Nat) : roundBits a b ≤ infBits := by
  simp only [roundBits]
  split
  · exact Nat.le_refl _
  · split <;> omega

/-- `n * 10^x`, rounded. -/
def ofDecimal (neg : Bool) (n : Nat) (x : Int) : F64 :=
  if 0 ≤ x then .num neg (roundBits (n * 10 ^ x.toNat * 2 ^ 1074) 1) (roundBits_le _ _)
  else .num neg (roundBits (n * 2 ^ 1074) (10 ^ (-x).toNat)) (roundBits_le _ _)

/-- The digits of an exponent (Rust std, `core::num::dec2flt::parse::parse_scientific`). -/
def exponentDigits (ds : Bytes) : Nat :=
  ds.foldl (fun exponent c => if exponent < 0x10000 then 10 * exponent + (c.toNat - 48) else exponent) 0

/-- The exponent of a numeral, after the letter. -/
def exponentVal : Bytes → Int
  | 45 :: ds => -(exponentDigits ds : Int)
  | 43 :: ds => exponentDigits ds
  | ds => exponentDigits ds

/-- The value of an accepted string (Rust std, `core::num::dec2flt`). -/
def value (t : Bytes) : F64 :=
  let neg := t.head? == some 45
  let s := dropSign t
  if s.map lower = b!"nan" then .nan
  else if s.map lower = b!"inf" ∨ s.map lower = b!"infinity" then .num neg infBits (Nat.le_refl _)
  else
    let i := s.takeWhile isDigit
    let r := s.dropWhile isDigit
    let f := match r with | 46 :: r' => r'.takeWhile isDigit | _ => []
    let r2 := match r with | 46 :: r' => r'.dropWhile isDigit | _ => r
    let x := match r2 with | [] => 0 | _ :: r3 => exponentVal r3
    ofDecimal neg (digitsVal (i ++ f)) (x - f.length)

instance : FloatSem F64 where
  value := value
  zero := .num false 0 (Nat.zero_le _)
  one := .num false (1023 * 2 ^ 52) (by decide)

/-- `==`: NaN is different from everything, the two zeros are equal. -/
instance : FloatEq F64 where
  feq
    | .num s n _, .num s' n' _ => n == n' && (s == s' || n == 0)
    | _, _ => false

/-- Where a number other than NaN is on the line. -/
def position (neg : Bool) (bits : Nat) : Int := if neg then -(bits : Int) else bits

/-- `partial_cmp`. -/
instance : FloatCmp F64 where
  fcmp
    | .num s n _, .num s' n' _ => some (compare (position s n) (position s' n'))
    | _, _ => none

/-- `Display` writes the shortest decimal number that is rounded to the given one, and of those the
nearest: the digits `d` and the exponent `x` of `d * 10^x`.  Going down from `x = 309`, the first
`x` such that one of the two multiples of `10^x` around the number is rounded to it; if both are, the
nearer one (Rust std, `core::num::flt2dec::strategy::dragon::format_shortest`, which starts at the first
digit). -/
def shortest (bits : Nat) : Nat → Int → Nat × Int
  | 0, x => (0, x)
  | fuel + 1, x =>
    let a := units bits * 10 ^ (-x).toNat
    let b := 2 ^ 1074 * 10 ^ x.toNat
    let d := a / b
    let down := roundsTo bits d x
    let up := roundsTo bits (d + 1) x
    if up && (!down || b ≤ 2 * (a % b)) then (d + 1, x)
    else if down then (d, x)
    else shortest bits fuel (x - 1)
where
  /-- `d * 10^x` is rounded to the number with these bits. -/
  roundsTo (bits d : Nat) (x : Int) : Bool :=
    match ofDecimal false d x with
    | .num _ n _ => n == bits
    | .nan => false

/-- `d * 10^x` without an exponent part (Rust std, `core::num::flt2dec::digits_to_dec_str`). -/
def plain (d : Nat) (x : Int) : Bytes :=
  let ds := showNat d
  if 0 ≤ x then ds ++ List.replicate x.toNat 48
  else
    let n := (-x).toNat
    if n < ds.length then ds.take (ds.length - n) ++ b!"." ++ ds.drop (ds.length - n)
    else b!"0." ++ List.replicate (n - ds.length) 48 ++ ds

/-- `Display` (Rust std, `core::fmt::float`). -/
instance : FloatShow F64 where
  display
    | .nan => b!"NaN"
    | .num neg bits _ =>
      (if neg then b!"-" else []) ++
        if bits = infBits then b!"inf"
        else if bits = 0 then b!"0"
        else plain (shortest bits 1384 309).1 (shortest bits 1384 309).2

end F64

end Verif
