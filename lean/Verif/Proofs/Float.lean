import Mathlib.Tactic.Ring
import Mathlib.Tactic.Linarith
import Mathlib.Tactic.FieldSimp
import Mathlib.Tactic.NormNum
import Mathlib.Tactic.Positivity
import Mathlib.Order.Monotone.Basic
import Verif.Spec.Float

/-!
# Rounding
-/

namespace Verif.F64

open Verif Verif.Spec

set_option exponentiation.threshold 2200

/-- In each binade the numbers are multiples of a power of two. -/
theorem units_of {s q : Nat} (h : s = 0 ∨ 2 ^ 52 ≤ q) (hq : q ≤ 2 ^ 53) : units (s * 2 ^ 52 + q) = q * 2 ^ s := by
  unfold units
  by_cases h1 : q < 2 ^ 52
  · obtain rfl : s = 0 := by omega
    have e1 : (0 * 2 ^ 52 + q) / 2 ^ 52 = 0 := by omega
    have e2 : (0 * 2 ^ 52 + q) % 2 ^ 52 = q := by omega
    rw [e1, e2]; simp
  · by_cases h2 : q = 2 ^ 53
    · subst h2
      have e1 : (s * 2 ^ 52 + 2 ^ 53) / 2 ^ 52 = s + 2 := by omega
      have e2 : (s * 2 ^ 52 + 2 ^ 53) % 2 ^ 52 = 0 := by omega
      rw [e1, e2, if_neg (by omega), show s + 2 - 1 = s + 1 by omega, Nat.pow_succ]
      ring
    · have e1 : (s * 2 ^ 52 + q) / 2 ^ 52 = s + 1 := by omega
      have e2 : (s * 2 ^ 52 + q) % 2 ^ 52 = q - 2 ^ 52 := by omega
      rw [e1, e2, if_neg (by omega), show s + 1 - 1 = s by omega, show 2 ^ 52 + (q - 2 ^ 52) = q by omega]

/-- Every number is of this form. -/
theorem bits_form (n : Nat) : ∃ s q, n = s * 2 ^ 52 + q ∧ (s = 0 ∨ 2 ^ 52 ≤ q) ∧ q < 2 ^ 53 := by
  refine ⟨n / 2 ^ 52 - 1, n - (n / 2 ^ 52 - 1) * 2 ^ 52, ?_, ?_, ?_⟩ <;> omega

theorem units_lt_succ (n : Nat) : units n < units (n + 1) := by
  obtain ⟨s, q, rfl, h, hq⟩ := bits_form n
  rw [units_of h hq.le, Nat.add_assoc, units_of (by omega) hq]
  exact Nat.mul_lt_mul_of_pos_right (Nat.lt_succ_self _) (Nat.two_pow_pos _)

theorem units_strictMono : StrictMono units := strictMono_nat_of_lt_succ units_lt_succ

theorem units_floorBits (k : Nat) : units (floorBits k) ≤ k ∧ k < units (floorBits k + 1) := by
  unfold floorBits
  generalize hs : Nat.log2 k - 52 = s
  have hlt : k < 2 ^ (s + 53) := by
    have := Nat.lt_log2_self (n := k)
    exact this.trans_le (Nat.pow_le_pow_right (by decide) (by omega))
  have hq : k / 2 ^ s < 2 ^ 53 := by
    rw [Nat.div_lt_iff_lt_mul (Nat.two_pow_pos _), ← Nat.pow_add, Nat.add_comm]
    exact hlt
  have h : s = 0 ∨ 2 ^ 52 ≤ k / 2 ^ s := by
    by_cases h0 : s = 0
    · exact .inl h0
    · right
      have hk : k ≠ 0 := by rintro rfl; simp at hs; omega
      rw [Nat.le_div_iff_mul_le (Nat.two_pow_pos _), ← Nat.pow_add]
      have := Nat.log2_self_le hk
      rwa [show 52 + s = Nat.log2 k by omega]
  rw [units_of h hq.le, Nat.add_assoc, units_of (by omega) hq]
  constructor
  · exact Nat.div_mul_le_self k _
  · have := Nat.lt_div_mul_add (a := k) (Nat.two_pow_pos s)
    rw [Nat.succ_mul]; exact this

theorem floorBits_div {a b : Nat} (hb : 0 < b) :
    b * units (floorBits (a / b)) ≤ a ∧ a < b * units (floorBits (a / b) + 1) := by
  obtain ⟨h1, h2⟩ := units_floorBits (a / b)
  rw [Nat.le_div_iff_mul_le hb] at h1
  rw [Nat.div_lt_iff_lt_mul hb] at h2
  rw [Nat.mul_comm b, Nat.mul_comm b]
  exact ⟨h1, h2⟩

/-- Rounding below infinity: no number is nearer, and if one is as near, the last bit is 0. -/
theorem roundBits_nearest {a b : Nat} (hb : 0 < b) (hR : roundBits a b < infBits) (m : Nat) :
    |(b * units (roundBits a b) : ℤ) - a| ≤ |(b * units m : ℤ) - a| ∧
      (|(b * units (roundBits a b) : ℤ) - a| = |(b * units m : ℤ) - a| → m ≠ roundBits a b →
        roundBits a b % 2 = 0) := by
  obtain ⟨h1, h2⟩ := floorBits_div (a := a) hb
  simp only [roundBits] at hR ⊢
  generalize floorBits (a / b) = n at *
  have hsm : ∀ i j, i < j → b * units i < b * units j := fun i j h =>
    Nat.mul_lt_mul_of_pos_left (units_strictMono h) hb
  have hn : ¬ infBits ≤ n := by
    intro h; rw [if_pos h] at hR; omega
  rw [if_neg hn]
  rw [Nat.mul_add] at *
  have cast : ∀ i, (b * units i : ℤ) = ((b * units i : Nat) : ℤ) := fun i => by push_cast; rfl
  simp only [cast]
  have hc : m < n ∨ m = n ∨ m = n + 1 ∨ n + 1 < m := by omega
  have hmn : m < n → b * units m < b * units n := hsm _ _
  have hnm : n + 1 < m → b * units (n + 1) < b * units m := hsm _ _
  have e1 : m = n → b * units m = b * units n := by rintro rfl; rfl
  have e2 : m = n + 1 → b * units m = b * units (n + 1) := by rintro rfl; rfl
  have h12 := hsm n (n + 1) (by omega)
  by_cases hcond : 2 * a < b * units n + b * units (n + 1) ∨
      2 * a = b * units n + b * units (n + 1) ∧ n % 2 = 0
  · rw [if_pos hcond]
    generalize b * units m = M at *
    generalize b * units n = N at *
    generalize b * units (n + 1) = N1 at *
    simp only [Int.abs_eq_natAbs]
    omega
  · rw [if_neg hcond]
    generalize b * units m = M at *
    generalize b * units n = N at *
    generalize b * units (n + 1) = N1 at *
    simp only [Int.abs_eq_natAbs]
    omega

theorem infBits_even : infBits % 2 = 0 := by decide

theorem infBits_pos : 0 < infBits := by decide

/-- The threshold of infinity. -/
theorem roundBits_inf {a b : Nat} (hb : 0 < b) :
    roundBits a b = infBits ↔ b * (units (infBits - 1) + units infBits) ≤ 2 * a := by
  obtain ⟨h1, h2⟩ := floorBits_div (a := a) hb
  have he := infBits_even
  have hp := infBits_pos
  simp only [roundBits]
  generalize floorBits (a / b) = n at *
  have hsm : ∀ i j, i ≤ j → b * units i ≤ b * units j := fun i j h =>
    Nat.mul_le_mul_left _ (units_strictMono.monotone h)
  have hl := hsm (infBits - 1) infBits (by omega)
  rw [Nat.mul_add, Nat.mul_add]
  by_cases hn : infBits ≤ n
  · rw [if_pos hn]
    have := hsm _ _ hn
    simp only [true_iff]
    omega
  · rw [if_neg hn]
    by_cases hlast : n = infBits - 1
    · subst hlast
      rw [show infBits - 1 + 1 = infBits by omega] at *
      split <;> omega
    · have := hsm (n + 1) (infBits - 1) (by omega)
      split <;> omega

/-- Rounding only depends on the quotient. -/
theorem roundBits_congr {a b c d : Nat} (hb : 0 < b) (hd : 0 < d) (h : a * d = c * b) :
    roundBits a b = roundBits c d := by
  have e : a / b = c / d := by
    rw [← Nat.mul_div_mul_right a b hd, h, Nat.mul_comm b d, Nat.mul_div_mul_right c d hb]
  have hlt : ∀ x, 2 * a < b * x ↔ 2 * c < d * x := fun x => by
    rw [← Nat.mul_lt_mul_right hd, ← Nat.mul_lt_mul_right (a := b) (b := 2 * c) hb, Nat.mul_assoc, h, ← Nat.mul_assoc,
      show b * x * d = d * x * b by ring]
  have heq : ∀ x, 2 * a = b * x ↔ 2 * c = d * x := fun x => by
    rw [← Nat.mul_left_inj hd.ne', ← Nat.mul_left_inj (b := 2 * c) hb.ne', Nat.mul_assoc, h, ← Nat.mul_assoc,
      show b * x * d = d * x * b by ring]
  simp only [roundBits, e, hlt, heq]

/-- Rounding is monotone. -/
theorem roundBits_mono {a b c : Nat} (hb : 0 < b) (h : a ≤ c) : roundBits a b ≤ roundBits c b := by
  obtain ⟨h1, h2⟩ := floorBits_div (a := a) hb
  obtain ⟨h3, h4⟩ := floorBits_div (a := c) hb
  simp only [roundBits]
  generalize floorBits (a / b) = n at *
  generalize floorBits (c / b) = m at *
  have hnm : n ≤ m := by
    by_contra hc
    have := Nat.mul_le_mul_left b (units_strictMono.monotone (show m + 1 ≤ n by omega))
    omega
  rw [Nat.mul_add, Nat.mul_add]
  rcases Nat.eq_or_lt_of_le hnm with rfl | hlt
  · split
    · rfl
    · split <;> split <;> omega
  · split <;> split <;> (repeat' split) <;> omega

/-- Numbers of the format are not changed. -/
theorem roundBits_exact {a b n : Nat} (hb : 0 < b) (hn : n ≤ infBits) (h : a = b * units n) :
    roundBits a b = n := by
  rcases Nat.eq_or_lt_of_le hn with rfl | hlt
  · rw [roundBits_inf hb]
    have := Nat.mul_le_mul_left b (units_strictMono.monotone (show infBits - 1 ≤ infBits by omega))
    rw [Nat.mul_add]; omega
  · have hR : roundBits a b ≠ infBits := by
      rw [ne_eq, roundBits_inf hb, h, Nat.mul_add]
      have h1 := Nat.mul_le_mul_left b (units_strictMono.monotone (show n ≤ infBits - 1 by omega))
      have h2 := Nat.mul_lt_mul_of_pos_left (units_strictMono (show infBits - 1 < infBits by decide)) hb
      omega
    have hlt' : roundBits a b < infBits := by have := roundBits_le a b; omega
    have := (roundBits_nearest hb hlt' n).1
    rw [h] at this
    have hz : |((b * units n : ℤ)) - ((b * units n : Nat) : ℤ)| = 0 := by simp
    rw [hz] at this
    have h0 := abs_nonpos_iff.mp this
    have h0' : ((b * units (roundBits (b * units n) b) : Nat) : ℤ) = ((b * units n : Nat) : ℤ) := by
      push_cast at h0 ⊢; linarith
    rw [h]
    exact units_strictMono.injective (Nat.eq_of_mul_eq_mul_left hb (Int.ofNat_inj.mp h0'))

/-! ## Rational numbers -/

theorem bitsValue_eq (n : Nat) : bitsValue n = (units n : ℚ) / 2 ^ 1074 := by
  unfold bitsValue units
  split
  · rw [zpow_neg]; norm_cast
  · rename_i h
    obtain ⟨e, he⟩ : ∃ e, n / 2 ^ 52 = e + 1 := ⟨n / 2 ^ 52 - 1, by omega⟩
    rw [he]
    push_cast
    rw [show ((e : ℤ) + 1 - 1075) = (e : ℤ) - (1074 : ℕ) by push_cast; ring, zpow_sub₀ (by norm_num), zpow_natCast, zpow_natCast]
    rw [mul_div_assoc]

theorem bitsValue_strictMono : StrictMono bitsValue := fun a b h => by
  rw [bitsValue_eq, bitsValue_eq]
  have : (units a : ℚ) < units b := by exact_mod_cast units_strictMono h
  exact div_lt_div_of_pos_right this (by positivity)

theorem bitsValue_nonneg (n : Nat) : 0 ≤ bitsValue n := by rw [bitsValue_eq]; positivity

theorem bitsValue_zero : bitsValue 0 = 0 := by rw [bitsValue_eq]; norm_num [units]

/-- Distances in multiples of 2^-1074. -/
theorem dist_eq {a b : Nat} (hb : 0 < b) (m : Nat) :
    |bitsValue m - (a : ℚ) / b / 2 ^ 1074| = ((|(b * units m : ℤ) - a| : ℤ) : ℚ) / (b * 2 ^ 1074) := by
  have hb' : (b : ℚ) ≠ 0 := by exact_mod_cast hb.ne'
  have e : bitsValue m - (a : ℚ) / b / 2 ^ 1074 = ((b * units m : ℚ) - a) / (b * 2 ^ 1074) := by
    rw [bitsValue_eq, sub_div, div_div, mul_div_mul_left _ _ hb']
  rw [e, abs_div, abs_of_pos (show (0 : ℚ) < b * 2 ^ 1074 by positivity)]
  push_cast
  rfl

theorem nearest_bits {a b : Nat} (hb : 0 < b) (hR : roundBits a b < infBits) (m : Nat) :
    |bitsValue (roundBits a b) - (a : ℚ) / b / 2 ^ 1074| ≤ |bitsValue m - (a : ℚ) / b / 2 ^ 1074| ∧
      (|bitsValue (roundBits a b) - (a : ℚ) / b / 2 ^ 1074| = |bitsValue m - (a : ℚ) / b / 2 ^ 1074| →
        m ≠ roundBits a b → roundBits a b % 2 = 0) := by
  obtain ⟨h1, h2⟩ := roundBits_nearest hb hR m
  rw [dist_eq hb, dist_eq hb]
  have hp : (0 : ℚ) < b * 2 ^ 1074 := by positivity
  constructor
  · rw [div_le_div_iff_of_pos_right hp]; exact_mod_cast h1
  · rw [div_left_inj' hp.ne']
    intro h
    exact h2 (by exact_mod_cast h)

theorem units_infBits : units infBits = 2 ^ 52 * 2 ^ 2046 := by decide +kernel

theorem units_maxBits : units (infBits - 1) = (2 ^ 53 - 1) * 2 ^ 2045 := by decide +kernel

theorem overflow_eq : overflow = ((units (infBits - 1) + units infBits : Nat) : ℚ) / 2 / 2 ^ 1074 := by
  rw [units_infBits, units_maxBits, overflow, eq_div_iff (by positivity), eq_div_iff (by norm_num)]
  have h : ((2 ^ 1024 - 2 ^ 970) * 2 ^ 1074 * 2 : ℤ) = (((2 ^ 53 - 1) * 2 ^ 2045 + 2 ^ 52 * 2 ^ 2046 : Nat) : ℤ) := by
    decide +kernel
  exact_mod_cast congrArg (Int.cast : ℤ → ℚ) h

theorem overflow_iff {a b : Nat} (hb : 0 < b) :
    roundBits a b = infBits ↔ overflow ≤ (a : ℚ) / b / 2 ^ 1074 := by
  have hb' : (0 : ℚ) < b := by exact_mod_cast hb
  rw [roundBits_inf hb, overflow_eq, div_le_div_iff_of_pos_right (by positivity), div_le_div_iff₀ (by norm_num) hb']
  rw [Nat.mul_comm b, Nat.mul_comm 2]
  norm_cast

theorem signFactor_abs (neg : Bool) : |signFactor neg| = 1 := by cases neg <;> simp [signFactor]

/-- Rounding `a / b` multiples of 2^-1074. -/
theorem rounded (neg : Bool) {a b : Nat} (hb : 0 < b) :
    Rounded neg (signFactor neg * ((a : ℚ) / b / 2 ^ 1074)) (.num neg (roundBits a b) (roundBits_le a b)) := by
  have hr : (0 : ℚ) ≤ (a : ℚ) / b / 2 ^ 1074 := by positivity
  have habs : |signFactor neg * ((a : ℚ) / b / 2 ^ 1074)| = (a : ℚ) / b / 2 ^ 1074 := by
    rw [abs_mul, signFactor_abs, one_mul, abs_of_nonneg hr]
  refine ⟨⟨_, _, rfl⟩, fun h => ?_, fun h => ?_⟩
  · rw [habs] at h
    have hR : roundBits a b < infBits := by
      have h1 := roundBits_le a b
      have h2 : roundBits a b ≠ infBits := by rw [ne_eq, overflow_iff hb]; exact not_le.mpr h
      omega
    have hsame : ∀ x : ℚ, |signFactor neg * x - signFactor neg * ((a : ℚ) / b / 2 ^ 1074)| =
        |x - (a : ℚ) / b / 2 ^ 1074| := fun x => by
      rw [← mul_sub, abs_mul, signFactor_abs, one_mul]
    refine ⟨_, ⟨_, hR⟩, ?_⟩
    rintro y w ⟨_, hm⟩
    rename_i neg' m _
    rw [hsame]
    by_cases hs : neg' = neg
    · subst hs
      rw [hsame]
      obtain ⟨h1, h2⟩ := nearest_bits hb hR m
      exact ⟨h1, fun he hne => h2 he (fun hc => hne (by rw [hc]))⟩
    · have hs' : signFactor neg' = - signFactor neg := by
        cases neg <;> cases neg' <;> simp_all [signFactor]
      have hd : |signFactor neg' * bitsValue m - signFactor neg * ((a : ℚ) / b / 2 ^ 1074)| =
          bitsValue m + (a : ℚ) / b / 2 ^ 1074 := by
        rw [hs', show -signFactor neg * bitsValue m - signFactor neg * ((a : ℚ) / b / 2 ^ 1074) =
          -(signFactor neg * (bitsValue m + (a : ℚ) / b / 2 ^ 1074)) by ring, abs_neg, abs_mul, signFactor_abs, one_mul,
          abs_of_nonneg (add_nonneg (bitsValue_nonneg m) hr)]
      obtain ⟨h1, h2⟩ := nearest_bits hb hR 0
      rw [bitsValue_zero, zero_sub, abs_neg, abs_of_nonneg hr] at h1 h2
      have hm0 := bitsValue_nonneg m
      rw [hd]
      refine ⟨by linarith, fun he hne => ?_⟩
      have hz : bitsValue m = 0 := by linarith
      refine h2 (by linarith) (fun hc => hne ?_)
      rw [← hc, hz, bitsValue_zero]; simp
  · rw [habs, ← overflow_iff hb] at h
    congr

/-- There is only one way to round. -/
theorem Rounded_unique {neg : Bool} {q : ℚ} {x y : F64} (hx : Rounded neg q x) (hy : Rounded neg q y) : x = y := by
  by_cases h : |q| < overflow
  · obtain ⟨v, hv, hvn⟩ := hx.finite h
    obtain ⟨w, hw, hwn⟩ := hy.finite h
    obtain ⟨n, hn, rfl⟩ := hx.sign
    obtain ⟨m, hm, rfl⟩ := hy.sign
    have hv0 := hvn _ _ hw
    have hw0 := hwn _ _ hv
    cases hv with | mk _ hlt =>
    cases hw with | mk _ hlt' =>
    have hd : |signFactor neg * bitsValue n - q| = |signFactor neg * bitsValue m - q| := le_antisymm hv0.1 hw0.1
    by_cases he : n = m
    · subst he; rfl
    · exfalso
      have hne : signFactor neg * bitsValue n ≠ signFactor neg * bitsValue m := by
        intro hc
        have : signFactor neg ≠ 0 := by cases neg <;> simp [signFactor]
        exact he (bitsValue_strictMono.injective (mul_left_cancel₀ this hc))
      have e1 : n % 2 = 0 := hv0.2 hd hne
      have e2 : m % 2 = 0 := hw0.2 hd.symm hne.symm
      -- a number in between is nearer
      have key : ∀ i j : Nat, i < j → j < infBits → i % 2 = 0 → j % 2 = 0 →
          |signFactor neg * bitsValue i - q| = |signFactor neg * bitsValue j - q| →
          |signFactor neg * bitsValue (i + 1) - q| < |signFactor neg * bitsValue i - q| := by
        intro i j hij hj hi2 hj2 hdd
        have a1 := bitsValue_strictMono (show i < i + 1 by omega)
        have a2 := bitsValue_strictMono (show i + 1 < j by omega)
        have hmul : ∀ x : ℚ, |signFactor neg * x - q| = |x - signFactor neg * q| := fun x => by
          cases neg
          · simp [signFactor]
          · simp only [signFactor, if_true]; rw [← abs_neg]; congr 1; ring
        rw [hmul, hmul] at hdd ⊢
        generalize signFactor neg * q = z at *
        rcases abs_eq_abs.mp hdd with e | e
        · linarith
        · have h1 : bitsValue i - z < 0 := by linarith
          rw [abs_of_neg h1, abs_lt]
          constructor <;> linarith
      rcases Nat.lt_or_gt_of_ne he with hlt2 | hlt2
      · have := key _ _ hlt2 hlt' e1 e2 hd
        exact absurd (hvn _ _ (IsNumber.mk (neg := neg) (bits := n + 1) (by omega) (by omega))).1 (not_le.mpr this)
      · have := key _ _ hlt2 hlt e2 e1 hd.symm
        exact absurd (hwn _ _ (IsNumber.mk (neg := neg) (bits := m + 1) (by omega) (by omega))).1 (not_le.mpr this)
  · rw [hx.infinite (not_lt.mp h), hy.infinite (not_lt.mp h)]

/-! ## Numerals -/

theorem decimal_eq (ds : Bytes) : digitsVal ds = decimal ds := digitsVal_eq ds

theorem ofDecimal_rounded (neg : Bool) (n : Nat) (x : Int) :
    Rounded neg (signFactor neg * (n * 10 ^ x)) (ofDecimal neg n x) := by
  unfold ofDecimal
  split
  · rename_i h
    obtain ⟨k, rfl⟩ := Int.eq_ofNat_of_zero_le h
    have := rounded neg (a := n * 10 ^ k * 2 ^ 1074) (b := 1) Nat.one_pos
    have e : ((n * 10 ^ k * 2 ^ 1074 : Nat) : ℚ) / (1 : Nat) / 2 ^ 1074 = n * 10 ^ (k : ℤ) := by
      rw [Nat.cast_one, div_one, zpow_natCast, Nat.cast_mul, Nat.cast_mul, Nat.cast_pow, Nat.cast_pow]
      exact mul_div_cancel_right₀ _ (by positivity)
    rw [e] at this
    exact this
  · rename_i h
    obtain ⟨k, hk⟩ := Int.eq_ofNat_of_zero_le (show 0 ≤ -x by omega)
    obtain rfl : x = -(k : ℤ) := by omega
    have := rounded neg (a := n * 2 ^ 1074) (b := 10 ^ k) (by positivity)
    have e : ((n * 2 ^ 1074 : Nat) : ℚ) / (10 ^ k : Nat) / 2 ^ 1074 = n * 10 ^ (-(k : ℤ)) := by
      rw [div_right_comm, Nat.cast_mul, Nat.cast_pow, Nat.cast_pow]
      rw [show ((2 : Nat) : ℚ) = 2 from rfl, mul_div_cancel_right₀ _ (by positivity), zpow_neg, zpow_natCast]
      rfl
    rw [e] at this
    have e2 : (- -(k : ℤ)).toNat = k := by omega
    simp only [e2]
    exact this

def exponentOf : Bytes → Int
  | [] => 0
  | _ :: r => exponentVal r

theorem value_eq (t : Bytes) : value t =
    if (dropSign t).map lower = b!"nan" then .nan
    else if (dropSign t).map lower = b!"inf" ∨ (dropSign t).map lower = b!"infinity" then
      .num (t.head? == some 45) infBits (Nat.le_refl _)
    else ofDecimal (t.head? == some 45)
      (digitsVal ((dropSign t).takeWhile isDigit ++ fracOf ((dropSign t).dropWhile isDigit)))
      (exponentOf (afterFrac ((dropSign t).dropWhile isDigit)) -
        (fracOf ((dropSign t).dropWhile isDigit)).length) := by
  unfold value
  generalize dropSign t = s
  generalize hr : s.dropWhile isDigit = r
  simp only [hr]
  cases r with
  | nil => rfl
  | cons c r =>
    by_cases hc : c = 46
    · subst hc
      simp only [fracOf, afterFrac, if_true]
      cases r.dropWhile isDigit <;> rfl
    · have e1 : (match c :: r with | 46 :: r' => r'.takeWhile isDigit | _ => []) = fracOf (c :: r) := by
        split
        · rename_i e; simp only [List.cons.injEq] at e; exact absurd e.1 hc
        · simp [fracOf, hc]
      have e2 : (match c :: r with | 46 :: r' => r'.dropWhile isDigit | _ => c :: r) = afterFrac (c :: r) := by
        split
        · rename_i e; simp only [List.cons.injEq] at e; exact absurd e.1 hc
        · simp [afterFrac, hc]
      have e3 : ∀ x y : Bytes, x = fracOf (c :: r) → y = afterFrac (c :: r) →
          ofDecimal (t.head? == some 45) (digitsVal (s.takeWhile isDigit ++ x)) ((match y with | [] => 0 | _ :: r3 => exponentVal r3) - x.length) =
          ofDecimal (t.head? == some 45) (digitsVal (s.takeWhile isDigit ++ fracOf (c :: r)))
            (exponentOf (afterFrac (c :: r)) - (fracOf (c :: r)).length) := by
        rintro _ _ rfl rfl
        cases afterFrac (c :: r) <;> rfl
      have := e3 _ _ e1 e2
      rw [← this]
      rfl

theorem star_digit {ds : Bytes} (h : DigitsStar ds) (hne : ds ≠ []) : ∃ d r, ds = d :: r ∧ 48 ≤ d ∧ d ≤ 57 := by
  cases ds with
  | nil => exact absurd rfl hne
  | cons d r => exact ⟨d, r, rfl, h d (by simp)⟩

theorem exponentVal_plain {ds : Bytes} (h : DigitsStar ds) (hne : ds ≠ []) : exponentVal ds = exponentDigits ds := by
  obtain ⟨d, r, rfl, hd⟩ := star_digit h hne
  unfold exponentVal
  split
  · rename_i e; simp only [List.cons.injEq] at e; exact absurd hd (by rw [e.1]; decide)
  · rename_i e; simp only [List.cons.injEq] at e; exact absurd hd (by rw [e.1]; decide)
  · rfl

theorem exponentDigits_concat (ds : Bytes) (c : UInt8) : exponentDigits (ds ++ [c]) =
    if exponentDigits ds < 65536 then 10 * exponentDigits ds + (c.toNat - 48) else exponentDigits ds := by
  rw [exponentDigits, List.foldl_append]; rfl

theorem digitsVal_concat (ds : Bytes) (c : UInt8) : digitsVal (ds ++ [c]) = 10 * digitsVal ds + (c.toNat - 48) := by
  simp [digitsVal, List.foldl_append]

/-- Exponents below 655360 are read exactly, others as something from 65536 on. -/
theorem exponentDigits_cases {ds : Bytes} (h : DigitsStar ds) :
    exponentDigits ds = digitsVal ds ∧ digitsVal ds < 655360 ∨ 65536 ≤ exponentDigits ds ∧ 655360 ≤ digitsVal ds := by
  induction ds using List.reverseRecOn with
  | nil => exact .inl ⟨rfl, by decide⟩
  | append_singleton ds c ih =>
    have hc : c.toNat - 48 ≤ 9 := by
      have := (h c (by simp)).2
      rw [UInt8.le_iff_toNat_le] at this
      have e : (57 : UInt8).toNat = 57 := rfl
      omega
    rw [exponentDigits_concat, digitsVal_concat]
    rcases ih (fun d hd => h d (by simp [hd])) with ⟨h1, h2⟩ | ⟨h1, h2⟩
    · rw [h1]
      split
      · exact .inl ⟨rfl, by omega⟩
      · exact .inr ⟨by omega, by omega⟩
    · rw [if_neg (by omega)]
      exact .inr ⟨h1, by omega⟩

/-- `y` is what the exponent `x` is read as. -/
def CutTo (x y : ℤ) : Prop := y = x ∧ |x| < 655360 ∨ 655360 ≤ x ∧ 65536 ≤ y ∨ x ≤ -655360 ∧ y ≤ -65536

theorem cutTo_digits {ds : Bytes} (h : DigitsStar ds) : CutTo (decimal ds) (exponentDigits ds) := by
  rw [← decimal_eq]
  rcases exponentDigits_cases h with ⟨h1, h2⟩ | ⟨h1, h2⟩
  · refine .inl ⟨by rw [h1], ?_⟩
    rw [abs_lt]
    omega
  · exact .inr (.inl ⟨by omega, by omega⟩)

theorem CutTo.neg {x y : ℤ} (h : CutTo x y) : CutTo (-x) (-y) := by
  rcases h with ⟨h1, h2⟩ | ⟨h1, h2⟩ | ⟨h1, h2⟩
  · exact .inl ⟨by rw [h1], by rwa [abs_neg]⟩
  · exact .inr (.inr ⟨by omega, by omega⟩)
  · exact .inr (.inl ⟨by omega, by omega⟩)

theorem exponentOf_cut {e : Bytes} {x : ℤ} (h : ExponentIs e x) : CutTo x (exponentOf e) := by
  cases h with
  | none => exact .inl ⟨rfl, by decide⟩
  | plus he hs hd hne =>
    rename_i e s ds
    have := cutTo_digits hd
    rcases he with rfl | rfl <;> rcases hs with rfl | rfl
    · show CutTo _ (exponentVal ds); rw [exponentVal_plain hd hne]; exact this
    · exact this
    · show CutTo _ (exponentVal ds); rw [exponentVal_plain hd hne]; exact this
    · exact this
  | minus he hd hne =>
    rename_i e ds
    have := (cutTo_digits hd).neg
    rcases he with rfl | rfl <;> exact this

theorem exponentIs_head {e : Bytes} {x : ℤ} (h : ExponentIs e x) : ∀ c ∈ e.head?, isDigit c = false ∧ c ≠ 46 := by
  intro c hc
  cases h with
  | none => cases hc
  | plus he hs hd hne => rcases he with rfl | rfl <;> (obtain rfl := Option.some.inj hc; decide)
  | minus he hd hne => rcases he with rfl | rfl <;> (obtain rfl := Option.some.inj hc; decide)

theorem exponentIs_exponent {e : Bytes} {x : ℤ} (h : ExponentIs e x) : Exponent e := by
  cases h with
  | none => exact .inl rfl
  | plus he hs hd hne => exact .inr ⟨_, _, _, rfl, he, hs.elim .inl fun h => .inr (.inl h), hd, hne⟩
  | minus he hd hne => exact .inr ⟨_, _, _, rfl, he, .inr (.inr rfl), hd, hne⟩

theorem exponentIs_unique {e : Bytes} {x y : ℤ} (h : ExponentIs e x) (h' : ExponentIs e y) : x = y := by
  have digits : ∀ {ds : Bytes}, DigitsStar ds → ds ≠ [] → ∀ r, ds ≠ 43 :: r ∧ ds ≠ 45 :: r := by
    intro ds hd hne r
    exact ⟨by rintro rfl; exact absurd (hd 43 (by simp)) (by decide), by rintro rfl; exact absurd (hd 45 (by simp)) (by decide)⟩
  cases h with
  | none =>
    generalize he : ([] : Bytes) = e at h'
    cases h' with
    | none => rfl
    | plus h1 => rcases h1 with rfl | rfl <;> cases he
    | minus h1 => rcases h1 with rfl | rfl <;> cases he
  | plus h1 h2 h3 h4 =>
    rename_i a s ds
    generalize he : a ++ s ++ ds = e at h'
    cases h' with
    | none => rcases h1 with rfl | rfl <;> cases he
    | plus g1 g2 g3 g4 =>
      rename_i a' s' ds'
      have : ds = ds' := by
        rcases h1 with rfl | rfl <;> rcases g1 with rfl | rfl <;> rcases h2 with rfl | rfl <;> rcases g2 with rfl | rfl <;>
          simp at he <;> first | exact he | exact absurd he (digits h3 h4 _).1 | exact absurd he.symm (digits g3 g4 _).1
      rw [this]
    | minus g1 g3 g4 =>
      rename_i a' ds'
      exfalso
      rcases h1 with rfl | rfl <;> rcases g1 with rfl | rfl <;> rcases h2 with rfl | rfl <;> simp at he <;>
        exact absurd he (digits h3 h4 _).2
  | minus h1 h3 h4 =>
    rename_i a ds
    generalize he : a ++ b!"-" ++ ds = e at h'
    cases h' with
    | none => rcases h1 with rfl | rfl <;> cases he
    | plus g1 g2 g3 g4 =>
      rename_i a' s' ds'
      exfalso
      rcases h1 with rfl | rfl <;> rcases g1 with rfl | rfl <;> rcases g2 with rfl | rfl <;> simp at he <;>
        exact absurd he.symm (digits g3 g4 _).2
    | minus g1 g3 g4 =>
      rename_i a' ds'
      have : ds = ds' := by
        rcases h1 with rfl | rfl <;> rcases g1 with rfl | rfl <;> simp at he <;> exact he
      rw [this]

theorem exponent_is {e : Bytes} (h : Exponent e) : ∃ x, ExponentIs e x := by
  rcases h with rfl | ⟨m, s, ds, rfl, hm, hs, hd, hne⟩
  · exact ⟨_, .none⟩
  · rcases hs with rfl | rfl | rfl
    · exact ⟨_, .plus hm (.inl rfl) hd hne⟩
    · exact ⟨_, .plus hm (.inr rfl) hd hne⟩
    · exact ⟨_, .minus hm hd hne⟩

/-- The parts of a numeral. -/
theorem numeral_parts {s i p f e : Bytes} {x : ℤ} (hs : Sign s) (hi : DigitsStar i) (hf : DigitsStar f)
    (hne : i ≠ [] ∨ f ≠ []) (hp : p = b!"." ∨ p = [] ∧ f = []) (he : ExponentIs e x) :
    ((s ++ i ++ p ++ f ++ e).head? == some 45) = decide (s = b!"-") ∧
    (∀ w : Bytes, w.head? = some 110 ∨ w.head? = some 105 → (dropSign (s ++ i ++ p ++ f ++ e)).map lower ≠ w) ∧
    (dropSign (s ++ i ++ p ++ f ++ e)).takeWhile isDigit = i ∧
    fracOf ((dropSign (s ++ i ++ p ++ f ++ e)).dropWhile isDigit) = f ∧
    afterFrac ((dropSign (s ++ i ++ p ++ f ++ e)).dropWhile isDigit) = e := by
  have hh := exponentIs_head he
  -- the first character after the sign
  obtain ⟨c, r, hc, hcd⟩ : ∃ c r, i ++ p ++ f ++ e = c :: r ∧ (c = 46 ∨ 48 ≤ c ∧ c ≤ 57) := by
    by_cases hin : i = []
    · subst hin
      rcases hp with rfl | ⟨rfl, rfl⟩
      · exact ⟨46, _, rfl, .inl rfl⟩
      · simp at hne
    · obtain ⟨d, r, rfl, hd⟩ := star_digit hi hin
      exact ⟨d, _, rfl, .inr hd⟩
  have hns : NoSign (i ++ p ++ f ++ e) := by
    rw [hc]
    intro d hd
    obtain rfl := Option.some.inj hd
    rcases hcd with rfl | hcd
    · decide
    · constructor <;> (rintro rfl; exact absurd hcd (by decide))
  have ht : s ++ i ++ p ++ f ++ e = s ++ (i ++ p ++ f ++ e) := by simp
  have hds : dropSign (s ++ i ++ p ++ f ++ e) = i ++ p ++ f ++ e := by rw [ht, dropSign_append hs hns]
  have hneg : ((s ++ i ++ p ++ f ++ e).head? == some 45) = decide (s = b!"-") := by
    rw [ht]
    rcases hs with rfl | rfl | rfl
    · have := (hns c (by rw [hc]; rfl)).2
      rw [List.nil_append, hc]
      simp [this]
    · rfl
    · rfl
  have hlow : ∀ w : Bytes, w.head? = some 110 ∨ w.head? = some 105 → (i ++ p ++ f ++ e).map lower ≠ w := by
    intro w hw h
    rw [hc] at h
    rw [← h] at hw
    simp only [List.map_cons, List.head?_cons, Option.some.injEq] at hw
    have hl : ∀ d : UInt8, d = 46 ∨ 48 ≤ d ∧ d ≤ 57 → lower d = d := by
      intro d hd
      rw [lower, if_neg]
      rcases hd with rfl | hd
      · decide
      · simp only [UInt8.le_iff_toNat_le] at hd
        have h57 : d.toNat ≤ 57 := hd.2
        omega
    rw [hl c hcd] at hw
    rcases hw with rfl | rfl <;> exact absurd hcd (by decide)
  rw [hds]
  refine ⟨hneg, hlow, ?_⟩
  rcases hp with rfl | ⟨rfl, rfl⟩
  · have ea : i ++ b!"." ++ f ++ e = i ++ (46 :: (f ++ e)) := by simp
    obtain ⟨e1, e2⟩ := span_digits (r := 46 :: (f ++ e)) hi (by intro c hc; obtain rfl := Option.some.inj hc; decide)
    obtain ⟨e3, e4⟩ := span_digits hf (fun c hc => (hh c hc).1)
    rw [ea, e1, e2, fracOf, afterFrac, if_pos rfl, if_pos rfl, e3, e4]
    exact ⟨rfl, rfl, rfl⟩
  · have ea : i ++ [] ++ [] ++ e = i ++ e := by simp
    obtain ⟨e1, e2⟩ := span_digits hi (fun c hc => (hh c hc).1)
    have e3 : fracOf e = [] := by
      cases e with
      | nil => rfl
      | cons d e => rw [fracOf, if_neg (hh d rfl).2]
    have e4 : afterFrac e = e := by
      cases e with
      | nil => rfl
      | cons d e => rw [afterFrac, if_neg (hh d rfl).2]
    rw [ea, e1, e2, e3, e4]
    exact ⟨rfl, rfl, rfl⟩

/-- The value of a numeral. -/
theorem value_numeral {s i p f e : Bytes} {x : ℤ} (hs : Sign s) (hi : DigitsStar i) (hf : DigitsStar f)
    (hne : i ≠ [] ∨ f ≠ []) (hp : p = b!"." ∨ p = [] ∧ f = []) (he : ExponentIs e x) :
    value (s ++ i ++ p ++ f ++ e) = ofDecimal (decide (s = b!"-")) (digitsVal (i ++ f)) (exponentOf e - f.length) := by
  obtain ⟨hneg, hlow, h1, h2, h3⟩ := numeral_parts hs hi hf hne hp he
  rw [value_eq, hneg, if_neg (hlow _ (.inl rfl)), if_neg (not_or.mpr ⟨hlow _ (.inr rfl), hlow _ (.inr rfl)⟩), h1, h2, h3]

/-- A numeral denotes one number. -/
theorem denotes_unique {t : Bytes} {neg neg' : Bool} {q q' : ℚ} (h : Denotes t neg q) (h' : Denotes t neg' q') :
    neg = neg' ∧ q = q' := by
  obtain ⟨s, i, p, f, e, x, rfl, hs, rfl, hi, hf, hne, hp, he, rfl⟩ := h
  obtain ⟨s', i', p', f', e', x', ht, hs', rfl, hi', hf', hne', hp', he', rfl⟩ := h'
  obtain ⟨a1, -, a2, a3, a4⟩ := numeral_parts hs hi hf hne hp he
  obtain ⟨b1, -, b2, b3, b4⟩ := numeral_parts hs' hi' hf' hne' hp' he'
  rw [ht] at a1 a2 a3 a4
  rw [b1] at a1
  rw [b2] at a2
  rw [b3] at a3
  rw [b4] at a4
  subst a2 a3 a4
  rw [exponentIs_unique he he', a1]
  exact ⟨rfl, rfl⟩

theorem digitsVal_lt {ds : Bytes} (h : DigitsStar ds) : digitsVal ds < 10 ^ ds.length := by
  induction ds using List.reverseRecOn with
  | nil => decide
  | append_singleton ds c ih =>
    have hc : c.toNat - 48 ≤ 9 := by
      have := (h c (by simp)).2
      rw [UInt8.le_iff_toNat_le] at this
      have e : (57 : UInt8).toNat = 57 := rfl
      omega
    have := ih (fun d hd => h d (by simp [hd]))
    rw [digitsVal_concat, List.length_append, List.length_singleton, Nat.pow_succ]
    omega

/-- A large number is read as infinity, whatever number it is. -/
theorem rounded_large {neg : Bool} {q q' : ℚ} {x : F64} (h : Rounded neg q x) (hq : overflow ≤ |q|)
    (hq' : overflow ≤ |q'|) : Rounded neg q' x :=
  ⟨h.sign, fun h' => absurd h' (not_lt.mpr hq'), fun _ => h.infinite hq⟩

/-- Half of the least positive number. -/
theorem rounded_small {neg : Bool} {q : ℚ} (h : |q| < 1 / 2 ^ 1075) : Rounded neg q (.num neg 0 (Nat.zero_le _)) := by
  have hlt : |q| < overflow := by
    refine h.trans_le (le_trans (b := 1) ?_ ?_)
    · rw [div_le_one (by positivity)]; exact one_le_pow₀ (by norm_num)
    · unfold overflow; norm_num
  refine ⟨⟨_, _, rfl⟩, fun _ => ⟨0, ?_, ?_⟩, fun h' => absurd hlt (not_lt.mpr h')⟩
  · have := IsNumber.mk (neg := neg) (bits := 0) (Nat.zero_le _) infBits_pos
    rwa [bitsValue_zero, mul_zero] at this
  · intro y w hw
    refine ⟨?_, fun _ _ => rfl⟩
    rw [zero_sub, abs_neg]
    cases hw with
    | mk hb hb' =>
      rename_i neg' bits
      rcases Nat.eq_zero_or_pos bits with rfl | hpos
      · rw [bitsValue_zero, mul_zero, zero_sub, abs_neg]
      · have h1 : 1 / 2 ^ 1074 ≤ bitsValue bits := by
          rw [bitsValue_eq]
          refine div_le_div_of_nonneg_right ?_ (by positivity)
          have : 1 ≤ units bits := by
            have := units_strictMono hpos
            omega
          exact_mod_cast this
        have h2 : |signFactor neg' * bitsValue bits| = bitsValue bits := by
          rw [abs_mul, signFactor_abs, one_mul, abs_of_nonneg (bitsValue_nonneg _)]
        have h3 := abs_sub_abs_le_abs_sub (signFactor neg' * bitsValue bits) q
        rw [h2] at h3
        have h4 : (1 : ℚ) / 2 ^ 1074 = 1 / 2 ^ 1075 + 1 / 2 ^ 1075 := by
          rw [pow_succ]; field_simp; norm_num
        linarith

/-- From 10^309 on numbers are infinite. -/
theorem overflow_large {n : Nat} {x : ℤ} (hn : 0 < n) (hx : 309 ≤ x) : overflow ≤ (n : ℚ) * 10 ^ x := by
  obtain ⟨k, hk⟩ := Int.eq_ofNat_of_zero_le (show 0 ≤ x - 309 by omega)
  obtain rfl : x = ((309 + k : Nat) : ℤ) := by omega
  have h1 : (1 : ℚ) ≤ n := by exact_mod_cast hn
  have h2 : (10 : ℚ) ^ 309 ≤ 10 ^ (309 + k) := pow_le_pow_right₀ (by norm_num) (by omega)
  have h3 : overflow ≤ 10 ^ 309 := by unfold overflow; norm_num
  rw [zpow_natCast]
  calc overflow ≤ 10 ^ (309 + k) := h3.trans h2
    _ = 1 * 10 ^ (309 + k) := (one_mul _).symm
    _ ≤ _ := mul_le_mul_of_nonneg_right h1 (by positivity)

/-- Up to 10^-324 they are 0. -/
theorem small_small {n k : Nat} {x : ℤ} (hn : n < 10 ^ k) (hx : k + x ≤ -324) : (n : ℚ) * 10 ^ x < 1 / 2 ^ 1075 := by
  have h1 : (n : ℚ) ≤ 10 ^ (k : ℤ) := by rw [zpow_natCast]; exact_mod_cast hn.le
  have h2 : (10 : ℚ) ^ (k + x : ℤ) ≤ 10 ^ (-324 : ℤ) := zpow_le_zpow_right₀ (by norm_num) hx
  have h3 : (10 : ℚ) ^ (-324 : ℤ) < 1 / 2 ^ 1075 := by
    rw [zpow_neg, inv_eq_one_div]
    refine one_div_lt_one_div_of_lt (by positivity) ?_
    norm_num
  refine lt_of_le_of_lt (le_trans ?_ h2) h3
  rw [zpow_add₀ (by norm_num)]
  exact mul_le_mul_of_nonneg_right h1 (zpow_nonneg (by norm_num) _)

theorem exponentIs_length {e : Bytes} {x : ℤ} (h : ExponentIs e x) :
    (655360 ≤ x → 7 ≤ e.length) ∧ (x ≤ -655360 → 8 ≤ e.length) := by
  have key : ∀ ds : Bytes, DigitsStar ds → 655360 ≤ decimal ds → 6 ≤ ds.length := by
    intro ds hd hx
    rw [← decimal_eq] at hx
    by_contra hc
    have h1 := digitsVal_lt hd
    have h2 : 10 ^ ds.length ≤ 10 ^ 5 := Nat.pow_le_pow_right (by decide) (by omega)
    omega
  cases h with
  | none => constructor <;> intro h <;> omega
  | plus he hs hd hne =>
    refine ⟨fun h => ?_, fun h => by omega⟩
    have := key _ hd (by omega)
    rcases he with rfl | rfl <;> (simp; omega)
  | minus he hd hne =>
    refine ⟨fun h => by omega, fun h => ?_⟩
    have := key _ hd (by omega)
    rcases he with rfl | rfl <;> (simp; omega)

theorem cut_unique {m e m' e' : Bytes} {x x' : ℤ} (h : m ++ e = m' ++ e') (hm : ∀ c ∈ m, c ≠ 101 ∧ c ≠ 69)
    (hm' : ∀ c ∈ m', c ≠ 101 ∧ c ≠ 69) (he : ExponentIs e x) (he' : ExponentIs e' x') : e = e' := by
  have head : ∀ {e : Bytes} {x : ℤ}, ExponentIs e x → ∀ c ∈ e.head?, c = 101 ∨ c = 69 := by
    intro e x h c hc
    cases h with
    | none => cases hc
    | plus he hs hd hne => rcases he with rfl | rfl <;> (obtain rfl := Option.some.inj hc; decide)
    | minus he hd hne => rcases he with rfl | rfl <;> (obtain rfl := Option.some.inj hc; decide)
  have key : ∀ {m e : Bytes} {x : ℤ}, (∀ c ∈ m, c ≠ 101 ∧ c ≠ 69) → ExponentIs e x →
      (m ++ e).dropWhile (fun c => c != 101 && c != 69) = e := by
    intro m e x hm he
    induction m with
    | nil =>
      cases e with
      | nil => rfl
      | cons d e =>
        rcases head he d rfl with rfl | rfl <;> rfl
    | cons c m ih =>
      have := hm c (by simp)
      simp only [List.cons_append, List.dropWhile_cons]
      rw [if_pos (by simp [this])]
      exact ih fun c hc => hm c (by simp [hc])
  rw [← key hm he, h, key hm' he']

theorem digit_not_e {ds : Bytes} (h : DigitsStar ds) : ∀ c ∈ ds, c ≠ 101 ∧ c ≠ 69 := by
  intro c hc
  have := h c hc
  constructor <;> (rintro rfl; exact absurd this (by decide))

theorem value_denotes {t : Bytes} {neg : Bool} {q : ℚ} (hm : Moderate t) (h : Denotes t neg q) :
    Rounded neg q (value t) := by
  obtain ⟨s, i, p, f, e, x, rfl, hs, rfl, hi, hf, hne, hp, he, rfl⟩ := h
  rw [value_numeral hs hi hf hne hp he, decimal_eq]
  have hr := ofDecimal_rounded (decide (s = b!"-")) (decimal (i ++ f)) (exponentOf e - f.length)
  have hif : DigitsStar (i ++ f) := fun c hc => (List.mem_append.mp hc).elim (hi c) (hf c)
  have habs : ∀ z : ℤ, |signFactor (decide (s = b!"-")) * ((decimal (i ++ f) : ℚ) * 10 ^ z)| = (decimal (i ++ f) : ℚ) * 10 ^ z := by
    intro z
    rw [abs_mul, signFactor_abs, one_mul, abs_of_nonneg (mul_nonneg (Nat.cast_nonneg _) (zpow_nonneg (by norm_num) _))]
  rcases exponentOf_cut he with ⟨h1, -⟩ | hcut
  · rw [h1] at hr ⊢
    exact hr
  · have hlen : (s ++ i ++ p ++ f ++ e).length ≤ 65220 := by
      rcases hm with hm | ⟨m, e', x', h1, h2, h3, h4⟩
      · exact hm
      · exfalso
        obtain rfl := cut_unique h1 (by
          intro c hc
          simp only [List.mem_append] at hc
          rcases hc with ((hc | hc) | hc) | hc
          · rcases hs with rfl | rfl | rfl
            · cases hc
            · obtain rfl := List.mem_singleton.mp hc; decide
            · obtain rfl := List.mem_singleton.mp hc; decide
          · exact digit_not_e hi c hc
          · rcases hp with rfl | ⟨rfl, -⟩
            · obtain rfl := List.mem_singleton.mp hc; decide
            · cases hc
          · exact digit_not_e hf c hc) h2 he h3
        rw [abs_lt] at h4
        have h5 := exponentOf_cut h3
        have h6 : x' = x := exponentIs_unique h3 he
        omega
    simp only [List.length_append] at hlen
    have hpf : f.length ≠ 0 → 1 ≤ p.length := by
      intro h
      rcases hp with rfl | ⟨-, rfl⟩
      · simp
      · exact absurd rfl h
    obtain ⟨l1, l2⟩ := exponentIs_length he
    rcases hcut with ⟨h1, h2⟩ | ⟨h1, h2⟩
    · rcases Nat.eq_zero_or_pos (decimal (i ++ f)) with h0 | h0
      · rw [h0] at hr ⊢
        simpa using hr
      · have := l1 h1
        refine rounded_large hr ?_ ?_ <;> rw [habs]
        · exact overflow_large h0 (by omega)
        · exact overflow_large h0 (by omega)
    · have := l2 h1
      have hlt := digitsVal_lt hif
      rw [decimal_eq, List.length_append] at hlt
      have key : ∀ z : ℤ, z ≤ -65536 → (decimal (i ++ f) : ℚ) * 10 ^ (z - f.length) < 1 / 2 ^ 1075 := fun z hz =>
        small_small hlt (by push_cast; omega)
      have e1 := Rounded_unique hr (rounded_small (by rw [habs]; exact key _ h2))
      rw [e1]
      exact rounded_small (by rw [habs]; exact key _ (by omega))

/-- A numeral is read as some number, rounded, with its sign. -/
theorem value_rounded {t : Bytes} {neg : Bool} {q : ℚ} (h : Denotes t neg q) : ∃ q', Rounded neg q' (value t) := by
  obtain ⟨s, i, p, f, e, x, rfl, hs, rfl, hi, hf, hne, hp, he, rfl⟩ := h
  rw [value_numeral hs hi hf hne hp he]
  exact ⟨_, ofDecimal_rounded _ _ _⟩

theorem rounded_exists {t : Bytes} {neg : Bool} {q : ℚ} (h : Denotes t neg q) : ∃ x, Rounded neg q x := by
  obtain ⟨s, i, p, f, e, x, rfl, hs, rfl, hi, hf, hne, hp, he, rfl⟩ := h
  exact ⟨_, ofDecimal_rounded _ _ _⟩

/-- Every accepted string is a numeral or one of the words. -/
theorem denotes_or {t : Bytes} (h : isFloat t = true) :
    (∃ neg q, Denotes t neg q) ∨
      ∃ s r, t = s ++ r ∧ Sign s ∧ (AnyCase b!"inf" r ∨ AnyCase b!"infinity" r ∨ AnyCase b!"nan" r) := by
  obtain ⟨s, r, rfl, hs, h⟩ := isFloat_iff.mp h
  rcases h with ⟨m, e, rfl, hm, he⟩ | h
  · left
    obtain ⟨x, hx⟩ := exponent_is he
    rcases hm with ⟨hd, hne⟩ | ⟨i, f, rfl, hi, hf, hne⟩
    · exact ⟨_, _, s, m, [], [], e, x, by simp, hs, rfl, hd, (by intro c hc; cases hc), .inl hne, .inr ⟨rfl, rfl⟩, hx, rfl⟩
    · exact ⟨_, _, s, i, b!".", f, e, x, by simp, hs, rfl, hi, hf, hne, .inl rfl, hx, rfl⟩
  · exact .inr ⟨s, r, rfl, hs, h⟩

theorem denotes_isFloat {t : Bytes} {neg : Bool} {q : ℚ} (h : Denotes t neg q) : isFloat t = true := by
  obtain ⟨s, i, p, f, e, x, rfl, hs, rfl, hi, hf, hne, hp, he, rfl⟩ := h
  refine isFloat_iff.mpr ⟨s, i ++ p ++ f ++ e, by simp, hs, .inl ⟨i ++ p ++ f, e, by simp, ?_, exponentIs_exponent he⟩⟩
  rcases hp with rfl | ⟨rfl, rfl⟩
  · exact .inr ⟨i, f, rfl, hi, hf, hne⟩
  · exact .inl ⟨by simpa using hi, by simpa using hne⟩

private theorem l1 : ∀ l ∈ b!"inf", 97 ≤ l ∧ l ≤ 122 := by decide
private theorem l2 : ∀ l ∈ b!"infinity", 97 ≤ l ∧ l ≤ 122 := by decide
private theorem l3 : ∀ l ∈ b!"nan", 97 ≤ l ∧ l ≤ 122 := by decide

theorem value_nan {s r : Bytes} (hs : Sign s) (h : AnyCase b!"nan" r) : value (s ++ r) = .nan := by
  rw [value_eq, dropSign_append hs (anyCase_noSign l3 h), if_pos ((map_lower_iff l3).mpr h)]

theorem value_inf {s r : Bytes} (hs : Sign s) (h : AnyCase b!"inf" r ∨ AnyCase b!"infinity" r) :
    value (s ++ r) = .num (decide (s = b!"-")) infBits (Nat.le_refl _) := by
  have hns : NoSign r := h.elim (anyCase_noSign l1) (anyCase_noSign l2)
  have hl : r.map lower = b!"inf" ∨ r.map lower = b!"infinity" :=
    h.imp (map_lower_iff l1).mpr (map_lower_iff l2).mpr
  have hn : r.map lower ≠ b!"nan" := by
    intro hc; rw [hc] at hl; revert hl; decide
  have hneg : ((s ++ r).head? == some 45) = decide (s = b!"-") := by
    rcases hs with rfl | rfl | rfl
    · cases r with
      | nil => rfl
      | cons c r => have := (hns c rfl).2; simp [this]
    · rfl
    · rfl
  rw [value_eq, dropSign_append hs hns, if_neg hn, if_pos hl, hneg]

end Verif.F64
