import Mathlib.Data.Nat.Digits.Lemmas
import Verif.Proofs.Numbers

/-!
# Printed integers

`showNat` gives the digits of the number in base 10, the most significant one first and not 0.
-/

namespace Verif

theorem showNatAux_digits (fuel n : Nat) (acc : Bytes) (h : n < fuel) (hn : 0 < n) :
    showNatAux fuel n acc = (Nat.digits 10 n).reverse.map (fun d => UInt8.ofNat (48 + d)) ++ acc := by
  induction fuel generalizing n acc with
  | zero => omega
  | succ fuel ih =>
    unfold showNatAux
    simp only
    rw [Nat.digits_def' (by decide) hn]
    split
    · rename_i h10
      rw [Nat.div_eq_of_lt h10]
      simp
    · rename_i h10
      rw [ih (n / 10) _ (by omega) (by omega)]
      simp

theorem showNat_digits {n : Nat} (hn : 0 < n) :
    showNat n = (Nat.digits 10 n).reverse.map fun d => UInt8.ofNat (48 + d) := by
  unfold showNat
  rw [showNatAux_digits _ _ _ (Nat.lt_succ_self n) hn, List.append_nil]

theorem showNat_head_ne {n : Nat} (hn : 0 < n) : (showNat n).head? ≠ some 48 := by
  rw [showNat_digits hn, List.head?_map, List.head?_reverse]
  have h0 : Nat.digits 10 n ≠ [] := Nat.digits_ne_nil_iff_ne_zero.mpr hn.ne'
  have h1 := Nat.getLast_digit_ne_zero 10 hn.ne'
  have h2 : (Nat.digits 10 n).getLast h0 < 10 := Nat.digits_lt_base (by decide) (List.getLast_mem h0)
  rw [List.getLast?_eq_some_getLast h0, Option.map_some, ne_eq, Option.some.injEq]
  intro hc
  have := congrArg UInt8.toNat hc
  rw [toNat_digit h2] at this
  change _ = 48 at this
  omega

theorem showNat_last_ne {n : Nat} (hn : n % 10 ≠ 0) : (showNat n).getLast? ≠ some 48 := by
  have h0 : 0 < n := by omega
  rw [showNat_digits h0, List.getLast?_map, List.getLast?_reverse, Nat.digits_def' (by decide) h0, List.head?_cons,
    Option.map_some, ne_eq, Option.some.injEq]
  intro hc
  have := congrArg UInt8.toNat hc
  rw [toNat_digit (Nat.mod_lt _ (by decide))] at this
  change _ = 48 at this
  omega

end Verif
