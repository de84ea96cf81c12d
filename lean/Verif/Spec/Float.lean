import Mathlib.Data.Rat.Defs
import Mathlib.Algebra.Order.Field.Rat
import Mathlib.Algebra.Order.Group.Unbundled.Abs
import Mathlib.Data.Nat.Digits.Defs
import Mathlib.Order.WithBot
import Verif.Model.Float
import Verif.Proofs.Floats

/-!
# Specification of reading decimal numbers as `f64`

IEEE 754: the numbers of binary64 as rational numbers, the number a numeral denotes, and rounding to
nearest, ties to even.
-/

namespace Verif.Spec

open Verif

/-- The binary64 format: the number with these bits. -/
def bitsValue (bits : Nat) : ℚ :=
  if bits / 2 ^ 52 = 0 then ((bits % 2 ^ 52 : Nat) : ℚ) * 2 ^ (-1074 : ℤ)
  else ((2 ^ 52 + bits % 2 ^ 52 : Nat) : ℚ) * 2 ^ ((bits / 2 ^ 52 : Nat) - 1075 : ℤ)

/-- The sign as a factor. -/
def signFactor (neg : Bool) : ℚ := if neg then -1 else 1

/-- `IsNumber x y`: `x` is a finite number, and its value is `y`. -/
inductive IsNumber : F64 → ℚ → Prop
  | mk {neg bits} (h) : bits < infBits → IsNumber (.num neg bits h) (signFactor neg * bitsValue bits)

/-- The last bit is 0. -/
def EvenBits : F64 → Prop
  | .nan => False
  | .num _ bits _ => bits % 2 = 0

/-- `x` is the finite number nearest to `q`, the one with the even last bit if there are two. -/
def Nearest (q : ℚ) (x : F64) : Prop :=
  ∃ v, IsNumber x v ∧ ∀ y w, IsNumber y w → |v - q| ≤ |w - q| ∧ (|v - q| = |w - q| → v ≠ w → EvenBits x)

/-- From here on numbers are rounded to infinity: half a unit above the largest finite number. -/
def overflow : ℚ := 2 ^ 1024 - 2 ^ 970

/-- `x` is `q` rounded; `neg` is its sign. -/
structure Rounded (neg : Bool) (q : ℚ) (x : F64) : Prop where
  /-- the sign bit -/
  sign : ∃ bits h, x = .num neg bits h
  finite : |q| < overflow → Nearest q x
  infinite : overflow ≤ |q| → x = .num neg infBits (Nat.le_refl _)

/-- The number that digits stand for. -/
def decimal (ds : Bytes) : Nat := Nat.ofDigits 10 (ds.reverse.map fun c => c.toNat - 48)

/-- An exponent part and its value. -/
inductive ExponentIs : Bytes → ℤ → Prop
  | none : ExponentIs [] 0
  | plus {e s ds} : (e = b!"e" ∨ e = b!"E") → (s = [] ∨ s = b!"+") → DigitsStar ds → ds ≠ [] →
      ExponentIs (e ++ s ++ ds) (decimal ds)
  | minus {e ds} : (e = b!"e" ∨ e = b!"E") → DigitsStar ds → ds ≠ [] →
      ExponentIs (e ++ b!"-" ++ ds) (-(decimal ds : ℤ))

/-- A numeral of at most 65220 bytes, or with an exponent between -655359 and 655359. -/
def Moderate (t : Bytes) : Prop :=
  t.length ≤ 65220 ∨
  ∃ m e x, t = m ++ e ∧ (∀ c ∈ m, c ≠ 101 ∧ c ≠ 69) ∧ ExponentIs e x ∧ |x| < 655360

/-- The numeral `t` has the sign `neg` and stands for the number `q`. -/
def Denotes (t : Bytes) (neg : Bool) (q : ℚ) : Prop :=
  ∃ s i p f e x, t = s ++ i ++ p ++ f ++ e ∧ Sign s ∧ neg = decide (s = b!"-") ∧ DigitsStar i ∧ DigitsStar f ∧
    (i ≠ [] ∨ f ≠ []) ∧ (p = b!"." ∨ p = [] ∧ f = []) ∧ ExponentIs e x ∧
    q = signFactor neg * (decimal (i ++ f) * 10 ^ (x - f.length : ℤ))

/-- The number that an accepted string is read as. -/
inductive Reads : Bytes → F64 → Prop
  | numeral {t neg q x} : Denotes t neg q → Rounded neg q x → Reads t x
  | inf {s r} : Sign s → AnyCase b!"inf" r ∨ AnyCase b!"infinity" r →
      Reads (s ++ r) (.num (decide (s = b!"-")) infBits (Nat.le_refl _))
  | nan {s r} : Sign s → AnyCase b!"nan" r → Reads (s ++ r) .nan

/-- A finite number without a minus sign, and its value. -/
def IsPlus (x : F64) (q : ℚ) : Prop := ∃ bits h, x = .num false bits h ∧ IsNumber x q

/-- The place of a number on the line with the two infinities; NaN has none. -/
def place : F64 → Option (WithBot (WithTop ℚ))
  | .nan => none
  | .num neg bits _ =>
    if bits = infBits then some (if neg then ⊥ else ((⊤ : WithTop ℚ) : WithBot (WithTop ℚ)))
    else some ((signFactor neg * bitsValue bits : ℚ) : WithTop ℚ)

end Verif.Spec
