import Mathlib.Tactic.Push
import Verif.Proofs.Float
import Verif.Proofs.Digits

/-!
# Printing numbers
-/

namespace Verif.F64

open Verif Verif.Spec

set_option exponentiation.threshold 2200

theorem ofDecimal_form (d : Nat) (x : Int) :
    ∃ n h, ∀ s, ofDecimal s d x = .num s n h := by
  unfold ofDecimal
  split
  · exact ⟨_, roundBits_le _ _, fun _ => rfl⟩
  · exact ⟨_, roundBits_le _ _, fun _ => rfl⟩

theorem roundsTo_iff {bits d : Nat} {x : Int} (h : bits ≤ infBits) (neg : Bool) :
    shortest.roundsTo bits d x = true ↔ ofDecimal neg d x = .num neg bits h := by
  obtain ⟨n, hn, e⟩ := ofDecimal_form d x
  simp [shortest.roundsTo, e]

/-- With enough digits the number is met exactly. -/
theorem roundsTo_exact {bits : Nat} (h : bits ≤ infBits) : shortest.roundsTo bits (units bits * 5 ^ 1074) (-1074) = true := by
  rw [roundsTo_iff h false, ofDecimal, if_neg (by decide)]
  have : roundBits (units bits * 5 ^ 1074 * 2 ^ 1074) (10 ^ (- -1074 : Int).toNat) = bits := by
    apply roundBits_exact (by positivity) h
    rw [show (- -1074 : Int).toNat = 1074 from rfl, show (10 : Nat) = 5 * 2 from rfl, Nat.mul_pow]
    ring
  congr

/-- The loop ends with digits that are rounded to the number. -/
theorem shortest_rounds {bits : Nat} (h : bits ≤ infBits) : ∀ (fuel : Nat) (x : Int), -1074 ≤ x → x + 1075 ≤ fuel →
    shortest.roundsTo bits (shortest bits fuel x).1 (shortest bits fuel x).2 = true := by
  intro fuel
  induction fuel with
  | zero => intro x h1 h2; omega
  | succ fuel ih =>
    intro x h1 h2
    rw [shortest]
    split
    · rename_i hu; exact (Bool.and_eq_true_iff.mp hu).1
    · rename_i hu
      split
      · rename_i hd; exact hd
      · rename_i hd
        apply ih
        · by_contra hc
          obtain rfl : x = -1074 := by omega
          apply hd
          have e : units bits * 10 ^ (- -1074 : Int).toNat / (2 ^ 1074 * 10 ^ (-1074 : Int).toNat) = units bits * 5 ^ 1074 := by
            rw [show (- -1074 : Int).toNat = 1074 from rfl, show (-1074 : Int).toNat = 0 from rfl, Nat.pow_zero, Nat.mul_one,
              show (10 : Nat) = 5 * 2 from rfl, Nat.mul_pow, ← Nat.mul_assoc]
            exact Nat.mul_div_cancel _ (Nat.two_pow_pos _)
          rw [e]
          exact roundsTo_exact h
        · omega

theorem digitsVal_zeros (k : Nat) : digitsVal (List.replicate k 48) = 0 := by
  induction k with
  | zero => rfl
  | succ k ih =>
    rw [List.replicate_succ, show (48 : UInt8) :: List.replicate k 48 = [48] ++ List.replicate k 48 from rfl,
      digitsVal_append, ih]
    simp [digitsVal]

theorem star_append {a b : Bytes} (ha : DigitsStar a) (hb : DigitsStar b) : DigitsStar (a ++ b) := fun c hc =>
  (List.mem_append.mp hc).elim (ha c) (hb c)

theorem star_zeros (k : Nat) : DigitsStar (List.replicate k 48) := fun c hc => by
  rw [List.eq_of_mem_replicate hc]; decide

theorem star_showNat (d : Nat) : DigitsStar (showNat d) := fun c hc => isDigit_iff.mp ((showNat_spec d).2.1 c hc)

theorem plain_chars (d : Nat) (x : Int) : ∀ c ∈ plain d x, 48 ≤ c ∧ c ≤ 57 ∨ c = 46 := by
  have h := star_showNat d
  have hz := star_zeros
  intro c hc
  unfold plain at hc
  simp only at hc
  split at hc
  · exact .inl (star_append h (hz _) c hc)
  · split at hc
    · simp only [List.mem_append, List.mem_singleton] at hc
      rcases hc with (hc | hc) | hc
      · exact .inl (h c (List.mem_of_mem_take hc))
      · exact .inr hc
      · exact .inl (h c (List.mem_of_mem_drop hc))
    · rw [List.append_assoc, List.mem_append] at hc
      rcases hc with hc | hc
      · simp only [List.mem_cons, List.not_mem_nil, or_false] at hc
        rcases hc with rfl | rfl
        · exact .inl (by decide)
        · exact .inr rfl
      · exact .inl (star_append (hz _) h c hc)

/-- What is printed has no superfluous zeros. -/
theorem plain_canonical {d : Nat} {x : Int} (hd : 0 < d) (h : x < 0 → d % 10 ≠ 0) :
    ∃ i f, plain d x = i ++ (if f = [] then [] else b!"." ++ f) ∧ DigitsStar i ∧ DigitsStar f ∧ i ≠ [] ∧
      (i = b!"0" ∧ f ≠ [] ∨ i.head? ≠ some 48) ∧ f.getLast? ≠ some 48 := by
  have h1 := (showNat_spec d).1
  have h2 := star_showNat d
  have h3 := showNat_head_ne hd
  have h4 : x < 0 → (showNat d).getLast? ≠ some 48 := fun hx => showNat_last_ne (h hx)
  unfold plain
  simp only
  split
  · refine ⟨showNat d ++ List.replicate x.toNat 48, [], by simp, star_append h2 (star_zeros _), (by intro c hc; cases hc),
      by simp [h1], .inr ?_, by simp⟩
    rwa [List.head?_append_of_ne_nil _ h1]
  · rename_i hx
    have h4 := h4 (by omega)
    generalize hk : (-x).toNat = k
    have hk0 : 0 < k := by omega
    split
    · rename_i hlt
      have hf : (showNat d).drop ((showNat d).length - k) ≠ [] := by
        intro hc
        have := congrArg List.length hc
        rw [List.length_drop, List.length_nil] at this
        omega
      have hi : (showNat d).take ((showNat d).length - k) ≠ [] := by
        intro hc
        have := congrArg List.length hc
        rw [List.length_take, List.length_nil] at this
        omega
      refine ⟨(showNat d).take ((showNat d).length - k), (showNat d).drop ((showNat d).length - k), ?_,
        fun c hc => h2 c (List.mem_of_mem_take hc), fun c hc => h2 c (List.mem_of_mem_drop hc), hi, .inr ?_, ?_⟩
      · rw [if_neg hf, List.append_assoc]
      · rw [List.head?_take, if_neg (by omega)]
        exact h3
      · rw [List.getLast?_drop, if_neg (by omega)]
        exact h4
    · refine ⟨b!"0", List.replicate (k - (showNat d).length) 48 ++ showNat d, ?_, ?_, star_append (star_zeros _) h2, by simp,
        .inl ⟨rfl, by simp [h1]⟩, ?_⟩
      · rw [if_neg (by simp [h1])]
        simp
      · intro c hc; rw [List.mem_singleton.mp hc]; decide
      · rwa [List.getLast?_append_of_ne_nil _ h1]

/-- What is printed denotes the digits times the power of ten. -/
theorem plain_denotes (neg : Bool) (d : Nat) (x : Int) :
    Denotes ((if neg then b!"-" else []) ++ plain d x) neg (signFactor neg * (d * 10 ^ x)) := by
  have hsign : Sign (if neg then b!"-" else []) := by cases neg; exact .inl rfl; exact .inr (.inr rfl)
  have hneg : neg = decide ((if neg then b!"-" else []) = b!"-") := by cases neg <;> decide
  generalize (if neg then b!"-" else []) = sg at hsign hneg
  obtain ⟨h1, -, h3⟩ := showNat_spec d
  have h2 := star_showNat d
  unfold plain
  simp only
  split
  · rename_i h
    obtain ⟨k, rfl⟩ := Int.eq_ofNat_of_zero_le h
    refine ⟨_, showNat d ++ List.replicate k 48, [], [], [], 0, by simp, hsign, hneg, star_append h2 (star_zeros k),
      (by intro c hc; cases hc), .inl (by simp [h1]), .inr ⟨rfl, rfl⟩, .none, ?_⟩
    rw [List.append_nil, ← decimal_eq, digitsVal_append, digitsVal_zeros, h3]
    simp
  · rename_i h
    obtain ⟨k, hk⟩ := Int.eq_ofNat_of_zero_le (show 0 ≤ -x by omega)
    obtain rfl : x = -(k : ℤ) := by omega
    have e : (- -(k : ℤ)).toNat = k := by omega
    rw [e]
    split
    · rename_i hlt
      have hl : (List.drop ((showNat d).length - k) (showNat d)).length = k := by rw [List.length_drop]; omega
      refine ⟨_, (showNat d).take ((showNat d).length - k), b!".", (showNat d).drop ((showNat d).length - k), [], 0,
        by simp, hsign, hneg, fun c hc => h2 c (List.mem_of_mem_take hc), fun c hc => h2 c (List.mem_of_mem_drop hc),
        .inl ?_, .inl rfl, .none, ?_⟩
      · intro hc
        have := congrArg List.length hc
        rw [List.length_take, List.length_nil] at this
        omega
      · rw [List.take_append_drop, ← decimal_eq, h3, hl, zero_sub]
    · rename_i hge
      have hl : (List.replicate (k - (showNat d).length) (48 : UInt8) ++ showNat d).length = k := by
        rw [List.length_append, List.length_replicate]; omega
      refine ⟨_, b!"0", b!".", List.replicate (k - (showNat d).length) 48 ++ showNat d, [], 0, by simp, hsign, hneg,
        by intro c hc; rw [List.mem_singleton.mp hc]; decide, star_append (star_zeros _) h2, .inl (by decide), .inl rfl, .none, ?_⟩
      rw [show b!"0" ++ (List.replicate (k - (showNat d).length) 48 ++ showNat d) =
        (List.replicate (k - (showNat d).length + 1) 48 ++ showNat d) from rfl, ← decimal_eq, digitsVal_append, digitsVal_zeros,
        h3, hl, Nat.zero_mul, Nat.zero_add, zero_sub]

theorem plain_moderate (neg : Bool) (d : Nat) (x : Int) : Moderate ((if neg then b!"-" else []) ++ plain d x) := by
  have h2 : ∀ c ∈ showNat d, c ≠ 101 ∧ c ≠ 69 := digit_not_e (star_showNat d)
  have h0 : ∀ k, ∀ c ∈ List.replicate k (48 : UInt8), c ≠ 101 ∧ c ≠ 69 := fun k => digit_not_e (star_zeros k)
  have h46 : ∀ c ∈ b!".", c ≠ 101 ∧ c ≠ 69 := by decide
  have h046 : ∀ c ∈ b!"0.", c ≠ 101 ∧ c ≠ 69 := by decide
  refine .inr ⟨_, [], 0, (List.append_nil _).symm, ?_, .none, by decide⟩
  intro c hc
  rcases List.mem_append.mp hc with hc | hc
  · cases neg
    · cases hc
    · obtain rfl := List.mem_singleton.mp hc; decide
  · unfold plain at hc
    simp only at hc
    split at hc
    · exact (List.mem_append.mp hc).elim (h2 c) (h0 _ c)
    · split at hc
      · rcases List.mem_append.mp hc with hc | hc
        · exact (List.mem_append.mp hc).elim (fun h => h2 c (List.mem_of_mem_take h)) (h46 c)
        · exact h2 c (List.mem_of_mem_drop hc)
      · rcases List.mem_append.mp hc with hc | hc
        · exact (List.mem_append.mp hc).elim (h046 c) (h0 _ c)
        · exact h2 c hc

theorem value_plain (neg : Bool) (d : Nat) (x : Int) :
    value ((if neg then b!"-" else []) ++ plain d x) = ofDecimal neg d x :=
  Rounded_unique (value_denotes (plain_moderate neg d x) (plain_denotes neg d x)) (ofDecimal_rounded neg d x)

attribute [local irreducible] shortest plain ofDecimal

theorem display_nan : FloatShow.display F64.nan = b!"NaN" := rfl

theorem display_inf (neg : Bool) {h} :
    FloatShow.display (F64.num neg infBits h) = (if neg then b!"-" else []) ++ b!"inf" := by
  simp only [FloatShow.display, if_true]

theorem display_zero (neg : Bool) {h} :
    FloatShow.display (F64.num neg 0 h) = (if neg then b!"-" else []) ++ b!"0" := by
  simp only [FloatShow.display, if_neg (show 0 ≠ infBits by decide), if_true]

theorem display_other (neg : Bool) {bits : Nat} {h} (h1 : bits ≠ infBits) (h2 : bits ≠ 0) :
    FloatShow.display (F64.num neg bits h) =
      (if neg then b!"-" else []) ++ plain (shortest bits 1384 309).1 (shortest bits 1384 309).2 := by
  simp only [FloatShow.display, if_neg h1, if_neg h2]

theorem display_isFloat (x : F64) : isFloat (FloatShow.display x) = true := by
  cases x with
  | nan => decide +kernel
  | num neg bits h =>
    by_cases h1 : bits = infBits
    · subst h1; rw [display_inf]; cases neg <;> decide +kernel
    · by_cases h2 : bits = 0
      · subst h2; rw [display_zero]; cases neg <;> decide +kernel
      · rw [display_other neg h1 h2]
        exact denotes_isFloat (plain_denotes neg _ _)

theorem display_moderate (x : F64) : Moderate (FloatShow.display x) := by
  cases x with
  | nan => exact .inl (by decide)
  | num neg bits h =>
    by_cases h1 : bits = infBits
    · subst h1; rw [display_inf]; exact .inl (by cases neg <;> decide)
    · by_cases h2 : bits = 0
      · subst h2; rw [display_zero]; exact .inl (by cases neg <;> decide)
      · rw [display_other neg h1 h2]
        exact plain_moderate neg _ _

theorem value_display (x : F64) : value (FloatShow.display x) = x := by
  cases x with
  | nan => decide +kernel
  | num neg bits h =>
    by_cases h1 : bits = infBits
    · subst h1; rw [display_inf]; cases neg <;> (revert h; decide +kernel)
    · by_cases h2 : bits = 0
      · subst h2; rw [display_zero]; cases neg <;> (revert h; decide +kernel)
      · rw [display_other neg h1 h2, value_plain]
        exact (roundsTo_iff h neg).mp (shortest_rounds h 1384 309 (by decide) (by decide))

end Verif.F64
