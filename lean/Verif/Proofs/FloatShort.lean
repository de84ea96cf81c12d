import Verif.Proofs.FloatShow

/-!
# The shortest decimal number
-/

namespace Verif.F64

open Verif Verif.Spec

set_option exponentiation.threshold 2200

/-- A number without sign, rounded. -/
def roundAbs (r : ℚ) : Nat := roundBits (r.num.toNat * 2 ^ 1074) r.den

theorem roundAbs_le (r : ℚ) : roundAbs r ≤ infBits := roundBits_le _ _

theorem roundAbs_value {r : ℚ} (h : 0 ≤ r) : ((r.num.toNat * 2 ^ 1074 : Nat) : ℚ) / r.den / 2 ^ 1074 = r := by
  have e : ((r.num.toNat : ℕ) : ℚ) = r.num := by
    have := Int.toNat_of_nonneg (Rat.num_nonneg.mpr h)
    exact_mod_cast congrArg (Int.cast : ℤ → ℚ) this
  rw [div_right_comm, Nat.cast_mul, Nat.cast_pow, e, show ((2 : Nat) : ℚ) = 2 from rfl,
    mul_div_cancel_right₀ _ (by positivity)]
  exact Rat.num_div_den r

theorem roundAbs_mono {r s : ℚ} (h0 : 0 ≤ r) (h : r ≤ s) : roundAbs r ≤ roundAbs s := by
  have hs : 0 ≤ s := h0.trans h
  have e1 : roundAbs r = roundBits (r.num.toNat * 2 ^ 1074 * s.den) (r.den * s.den) :=
    roundBits_congr r.pos (Nat.mul_pos r.pos s.pos) (by ring)
  have e2 : roundAbs s = roundBits (s.num.toNat * 2 ^ 1074 * r.den) (r.den * s.den) :=
    roundBits_congr s.pos (Nat.mul_pos r.pos s.pos) (by ring)
  rw [e1, e2]
  apply roundBits_mono (Nat.mul_pos r.pos s.pos)
  have hle : r.num * s.den ≤ s.num * r.den := (Rat.le_iff ..).mp h
  have a1 := Int.toNat_of_nonneg (Rat.num_nonneg.mpr h0)
  have a2 := Int.toNat_of_nonneg (Rat.num_nonneg.mpr hs)
  have hle' : r.num.toNat * s.den ≤ s.num.toNat * r.den := by
    zify
    rw [a1, a2]
    exact hle
  calc r.num.toNat * 2 ^ 1074 * s.den = r.num.toNat * s.den * 2 ^ 1074 := by ring
    _ ≤ s.num.toNat * r.den * 2 ^ 1074 := Nat.mul_le_mul_right _ hle'
    _ = _ := by ring

theorem roundAbs_rounded (neg : Bool) {r : ℚ} (h : 0 ≤ r) :
    Rounded neg (signFactor neg * r) (.num neg (roundAbs r) (roundAbs_le r)) := by
  have := rounded neg (a := r.num.toNat * 2 ^ 1074) (b := r.den) r.pos
  rwa [roundAbs_value h] at this

theorem roundAbs_of {neg : Bool} {r : ℚ} (h : 0 ≤ r) {x : F64} (hx : Rounded neg (signFactor neg * r) x) :
    x = .num neg (roundAbs r) (roundAbs_le r) :=
  Rounded_unique hx (roundAbs_rounded neg h)

theorem roundAbs_bits {bits : Nat} (h : bits ≤ infBits) : roundAbs (bitsValue bits) = bits := by
  have h1 := roundAbs_rounded false (bitsValue_nonneg bits)
  have h2 := rounded false (a := units bits) (b := 1) Nat.one_pos
  rw [Nat.cast_one, div_one, ← bitsValue_eq] at h2
  have e := Rounded_unique h1 h2
  rw [num.injEq] at e
  rw [e.2, roundBits_exact Nat.one_pos h (by simp)]

theorem decimal_nonneg (d : Nat) (x : ℤ) : (0 : ℚ) ≤ d * 10 ^ x :=
  mul_nonneg (Nat.cast_nonneg _) (zpow_nonneg (by norm_num) _)

theorem roundsTo_abs {bits d : Nat} {x : ℤ} (h : bits ≤ infBits) :
    shortest.roundsTo bits d x = true ↔ roundAbs (d * 10 ^ x) = bits := by
  rw [roundsTo_iff h false, roundAbs_of (decimal_nonneg d x) (ofDecimal_rounded false d x), num.injEq]
  simp

/-- The number in multiples of a power of ten. -/
theorem scaled (bits : Nat) (x : ℤ) :
    ((units bits * 10 ^ (-x).toNat : Nat) : ℚ) / (2 ^ 1074 * 10 ^ x.toNat : Nat) = bitsValue bits / 10 ^ x := by
  rw [bitsValue_eq, div_div]
  rcases Int.le_total 0 x with h | h
  · obtain ⟨k, rfl⟩ := Int.eq_ofNat_of_zero_le h
    rw [show (-(k : ℤ)).toNat = 0 by omega, Int.toNat_natCast, zpow_natCast, pow_zero, Nat.mul_one, Nat.cast_mul,
      Nat.cast_pow, Nat.cast_pow]
    rfl
  · obtain ⟨k, hk⟩ := Int.eq_ofNat_of_zero_le (show 0 ≤ -x by omega)
    obtain rfl : x = -(k : ℤ) := by omega
    rw [show (-(k : ℤ)).toNat = 0 by omega, show (- -(k : ℤ)).toNat = k by omega, zpow_neg, zpow_natCast,
      ← div_div, div_inv_eq_mul, pow_zero, Nat.mul_one, Nat.cast_mul, Nat.cast_pow, Nat.cast_pow, div_mul_eq_mul_div]
    rfl

/-- One step of the search: the two neighbours and which is nearer. -/
theorem step_facts (bits : Nat) (x : ℤ) {a b d : Nat} (ha : a = units bits * 10 ^ (-x).toNat)
    (hb : b = 2 ^ 1074 * 10 ^ x.toNat) (hd : d = a / b) :
    (d : ℚ) * 10 ^ x ≤ bitsValue bits ∧ bitsValue bits ≤ ((d + 1 : Nat) : ℚ) * 10 ^ x ∧
      (b ≤ 2 * (a % b) → ((d + 1 : Nat) : ℚ) * 10 ^ x - bitsValue bits ≤ bitsValue bits - d * 10 ^ x) ∧
      (¬ b ≤ 2 * (a % b) → bitsValue bits - d * 10 ^ x ≤ ((d + 1 : Nat) : ℚ) * 10 ^ x - bitsValue bits) := by
  have hbp : 0 < b := by rw [hb]; positivity
  have hbq : (0 : ℚ) < b := by exact_mod_cast hbp
  have ht : (0 : ℚ) < 10 ^ x := zpow_pos (by norm_num) _
  have e : bitsValue bits = (a : ℚ) / b * 10 ^ x := by
    rw [ha, hb, scaled, div_mul_cancel₀ _ ht.ne']
  have hdm : d * b + a % b = a := by rw [hd, Nat.mul_comm]; exact Nat.div_add_mod a b
  have hdq : (a : ℚ) = d * b + (a % b : Nat) := by exact_mod_cast hdm.symm
  have hq : (a : ℚ) / b = d + ((a % b : Nat) : ℚ) / b := by
    rw [eq_comm, ← mul_div_cancel_right₀ (d : ℚ) hbq.ne', ← add_div, ← hdq]
  have hm : ((a % b : Nat) : ℚ) / b ≤ 1 := by
    rw [div_le_one hbq]; exact_mod_cast (Nat.mod_lt a hbp).le
  have hm0 : (0 : ℚ) ≤ ((a % b : Nat) : ℚ) / b := by positivity
  rw [e, hq, ← sub_mul, ← sub_mul]
  push_cast
  refine ⟨mul_le_mul_of_nonneg_right (by linarith) ht.le, mul_le_mul_of_nonneg_right (by linarith) ht.le, fun h => ?_, fun h => ?_⟩
  · apply mul_le_mul_of_nonneg_right _ ht.le
    have : (1 : ℚ) / 2 ≤ ((a % b : Nat) : ℚ) / b := by
      rw [div_le_div_iff₀ (by norm_num) hbq]
      have : (b : ℚ) ≤ 2 * (a % b : Nat) := by exact_mod_cast h
      linarith
    linarith
  · apply mul_le_mul_of_nonneg_right _ ht.le
    have : ((a % b : Nat) : ℚ) / b ≤ (1 : ℚ) / 2 := by
      rw [div_le_div_iff₀ hbq (by norm_num)]
      have : (2 * (a % b : Nat) : ℚ) ≤ (b : ℚ) := by exact_mod_cast (Nat.le_of_lt (Nat.lt_of_not_le h))
      linarith
    linarith

/-- A multiple below that is rounded to the number makes the one next to the number do so too. -/
theorem down_of {bits d d' : Nat} {x : ℤ} (h : bits ≤ infBits) (hd : (d : ℚ) * 10 ^ x ≤ bitsValue bits)
    (hle : d' ≤ d) (hr : shortest.roundsTo bits d' x = true) : shortest.roundsTo bits d x = true := by
  rw [roundsTo_abs h] at hr ⊢
  have h1 := roundAbs_mono (decimal_nonneg d x) hd
  have h2 : roundAbs (d' * 10 ^ x) ≤ roundAbs (d * 10 ^ x) := by
    apply roundAbs_mono (decimal_nonneg _ _)
    apply mul_le_mul_of_nonneg_right _ (zpow_nonneg (by norm_num) _)
    exact_mod_cast hle
  rw [roundAbs_bits h] at h1
  omega

theorem up_of {bits d d' : Nat} {x : ℤ} (h : bits ≤ infBits) (hd : bitsValue bits ≤ (d : ℚ) * 10 ^ x)
    (hle : d ≤ d') (hr : shortest.roundsTo bits d' x = true) : shortest.roundsTo bits d x = true := by
  rw [roundsTo_abs h] at hr ⊢
  have h1 := roundAbs_mono (bitsValue_nonneg bits) hd
  have h2 : roundAbs (d * 10 ^ x) ≤ roundAbs (d' * 10 ^ x) := by
    apply roundAbs_mono (decimal_nonneg _ _)
    apply mul_le_mul_of_nonneg_right _ (zpow_nonneg (by norm_num) _)
    exact_mod_cast hle
  rw [roundAbs_bits h] at h1
  omega

theorem shortest_best {bits : Nat} (h : bits ≤ infBits) : ∀ (fuel : Nat) (x : Int), -1074 ≤ x → x + 1075 ≤ fuel →
    (∀ d' x', (shortest bits fuel x).2 < x' → x' ≤ x → shortest.roundsTo bits d' x' = false) ∧
    ∀ d', shortest.roundsTo bits d' (shortest bits fuel x).2 = true →
      |((shortest bits fuel x).1 : ℚ) * 10 ^ (shortest bits fuel x).2 - bitsValue bits| ≤
        |(d' : ℚ) * 10 ^ (shortest bits fuel x).2 - bitsValue bits| := by
  intro fuel
  induction fuel with
  | zero => intro x h1 h2; omega
  | succ fuel ih =>
    intro x h1 h2
    rw [shortest]
    generalize ha : units bits * 10 ^ (-x).toNat = a
    generalize hb : 2 ^ 1074 * 10 ^ x.toNat = b
    generalize hd : a / b = d
    obtain ⟨f1, f2, f3, f4⟩ := step_facts bits x ha.symm hb.symm hd.symm
    have ht : (0 : ℚ) < 10 ^ x := zpow_pos (by norm_num) _
    have hlow : ∀ d' : Nat, d' ≤ d → bitsValue bits - d * 10 ^ x ≤ |(d' : ℚ) * 10 ^ x - bitsValue bits| := by
      intro d' hle
      have : (d' : ℚ) * 10 ^ x ≤ d * 10 ^ x := mul_le_mul_of_nonneg_right (by exact_mod_cast hle) ht.le
      rw [abs_sub_comm]
      exact le_trans (by linarith) (le_abs_self _)
    have hhigh : ∀ d' : Nat, d + 1 ≤ d' → ((d + 1 : Nat) : ℚ) * 10 ^ x - bitsValue bits ≤ |(d' : ℚ) * 10 ^ x - bitsValue bits| := by
      intro d' hle
      have : ((d + 1 : Nat) : ℚ) * 10 ^ x ≤ d' * 10 ^ x := mul_le_mul_of_nonneg_right (by exact_mod_cast hle) ht.le
      exact le_trans (by linarith) (le_abs_self _)
    split
    · rename_i hu
      rw [Bool.and_eq_true, Bool.or_eq_true, Bool.not_eq_true', decide_eq_true_eq] at hu
      refine ⟨fun _ _ _ _ => by omega, fun d' hd' => ?_⟩
      rw [abs_of_nonneg (by linarith)]
      rcases Nat.lt_or_ge d d' with hlt | hle
      · exact hhigh d' hlt
      · rcases hu.2 with hn | hn
        · rw [down_of h f1 hle hd'] at hn; cases hn
        · exact (f3 hn).trans (hlow d' hle)
    · rename_i hu
      split
      · rename_i hdn
        refine ⟨fun _ _ _ _ => by omega, fun d' hd' => ?_⟩
        rw [abs_sub_comm, abs_of_nonneg (by linarith)]
        rcases Nat.lt_or_ge d d' with hlt | hle
        · have hup := up_of h f2 hlt hd'
          rw [hup, hdn] at hu
          simp only [Bool.not_true, Bool.false_or, Bool.true_and, decide_eq_true_eq] at hu
          exact (f4 hu).trans (hhigh d' hlt)
        · exact hlow d' hle
      · rename_i hdn
        have hup : shortest.roundsTo bits (d + 1) x = false := by
          rw [Bool.not_eq_true] at hdn
          rw [hdn] at hu
          simpa using hu
        have hne : x ≠ -1074 := by
          rintro rfl
          have he := roundsTo_exact h
          rcases Nat.lt_or_ge d (units bits * 5 ^ 1074) with hlt | hle
          · rw [up_of h f2 hlt he] at hup; cases hup
          · exact hdn (down_of h f1 hle he)
        obtain ⟨i1, i2⟩ := ih (x - 1) (by omega) (by omega)
        refine ⟨fun d' x' hlt hle => ?_, i2⟩
        by_cases hx : x' = x
        · subst hx
          rw [Bool.eq_false_iff]
          intro hr
          rcases Nat.lt_or_ge d d' with hlt | hle
          · rw [up_of h f2 hlt hr] at hup; cases hup
          · exact hdn (down_of h f1 hle hr)
        · exact i1 d' x' hlt (by omega)

/-- Nothing that is rounded to a finite number other than 0 is a multiple of 10^310. -/
theorem roundsTo_small {bits d : Nat} {x : ℤ} (h0 : 0 < bits) (h : bits < infBits)
    (hr : shortest.roundsTo bits d x = true) : x ≤ 309 := by
  by_contra hx
  rw [roundsTo_abs h.le] at hr
  rcases Nat.eq_zero_or_pos d with rfl | hd
  · rw [Nat.cast_zero, zero_mul, show roundAbs 0 = 0 by decide +kernel] at hr
    omega
  · have h1 : overflow ≤ (d : ℚ) * 10 ^ x := by
      have a1 : (1 : ℚ) ≤ d := by exact_mod_cast hd
      have a2 : (10 : ℚ) ^ (309 : ℤ) ≤ 10 ^ x := zpow_le_zpow_right₀ (by norm_num) (by omega)
      have a3 : overflow ≤ (10 : ℚ) ^ (309 : ℤ) := by
        have hz : (2 ^ 1024 - 2 ^ 970 : ℤ) ≤ 10 ^ 309 := by decide +kernel
        rw [overflow, show ((309 : ℤ)) = ((309 : ℕ) : ℤ) from rfl, zpow_natCast]
        exact_mod_cast hz
      have a4 : (0 : ℚ) ≤ 10 ^ x := zpow_nonneg (by norm_num) _
      calc overflow ≤ 10 ^ x := a3.trans a2
        _ = 1 * 10 ^ x := (one_mul _).symm
        _ ≤ _ := mul_le_mul_of_nonneg_right a1 a4
    have h2 := (roundAbs_rounded false (decimal_nonneg d x)).infinite
      (by rw [show signFactor false = 1 from rfl, one_mul, abs_of_nonneg (decimal_nonneg d x)]; exact h1)
    rw [num.injEq] at h2
    omega

end Verif.F64
