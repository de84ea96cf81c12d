import Verif.Props.Float

/-!
# Property C92: long numerals

`str::parse::<f64>` does not add digits to an exponent any more once it exceeds 65535. This is
described here exactly, and C81 is shown to fail from 65221 bytes on.
-/

namespace Verif.Props

open Verif Verif.Spec

set_option exponentiation.threshold 70000

/-- `ds` is where the digits `ds ++ more` of an exponent are cut: at the first prefix whose value
exceeds 65535, or not at all. -/
def CutDigits (ds more : Bytes) : Prop :=
  (∀ p c r, ds = p ++ c :: r → decimal p ≤ 65535) ∧ (more = [] ∨ 65535 < decimal ds)

/-- An exponent part and what it is read as. -/
inductive ExponentReads : Bytes → ℤ → Prop
  | none : ExponentReads [] 0
  | plus {e s ds more} : (e = b!"e" ∨ e = b!"E") → (s = [] ∨ s = b!"+") → DigitsStar (ds ++ more) → ds ++ more ≠ [] →
      CutDigits ds more → ExponentReads (e ++ s ++ (ds ++ more)) (decimal ds)
  | minus {e ds more} : (e = b!"e" ∨ e = b!"E") → DigitsStar (ds ++ more) → ds ++ more ≠ [] →
      CutDigits ds more → ExponentReads (e ++ b!"-" ++ (ds ++ more)) (-(decimal ds : ℤ))

/-- The numeral `t` has the sign `neg` and is taken for a notation of the number `q`. -/
def TakenFor (t : Bytes) (neg : Bool) (q : ℚ) : Prop :=
  ∃ s i p f e x, t = s ++ i ++ p ++ f ++ e ∧ Sign s ∧ neg = decide (s = b!"-") ∧ DigitsStar i ∧ DigitsStar f ∧
    (i ≠ [] ∨ f ≠ []) ∧ (p = b!"." ∨ p = [] ∧ f = []) ∧ ExponentReads e x ∧
    q = signFactor neg * (decimal (i ++ f) * 10 ^ (x - f.length : ℤ))

theorem cut_digits (ds : Bytes) : ∃ a more, ds = a ++ more ∧ CutDigits a more ∧ F64.exponentDigits ds = decimal a := by
  induction ds using List.reverseRecOn with
  | nil => exact ⟨[], [], rfl, ⟨fun p c r h => (by cases p <;> cases h), .inl rfl⟩, by decide⟩
  | append_singleton ds c ih =>
    obtain ⟨a, more, rfl, ⟨h1, h2⟩, h3⟩ := ih
    rw [F64.exponentDigits_concat, h3]
    by_cases hlt : decimal a < 65536
    · obtain rfl : more = [] := by
        rcases h2 with h2 | h2
        · exact h2
        · omega
      rw [if_pos hlt, List.append_nil]
      refine ⟨a ++ [c], [], by simp, ⟨?_, .inl rfl⟩, ?_⟩
      · intro p d r h
        rcases List.eq_nil_or_concat r with rfl | ⟨r, d', rfl⟩
        · have := List.append_inj_left' h rfl
          subst this
          omega
        · have h' : a ++ [c] = (p ++ d :: r) ++ [d'] := by rw [h]; simp
          exact h1 p d r (List.append_inj_left' h' rfl)
      · rw [← F64.decimal_eq, ← F64.decimal_eq, F64.digitsVal_concat]
    · rw [if_neg hlt]
      exact ⟨a, more ++ [c], by simp, ⟨h1, .inr (by omega)⟩, rfl⟩

theorem cutDigits_unique {a more a' more' : Bytes} (h : CutDigits a more) (h' : CutDigits a' more')
    (e : a ++ more = a' ++ more') : a = a' := by
  have key : ∀ {a more a' more' : Bytes}, CutDigits a more → CutDigits a' more' → a ++ more = a' ++ more' →
      ∀ r, a' = a ++ r → r = [] := by
    intro a more a' more' h h' e r hr
    cases r with
    | nil => rfl
    | cons c r =>
      have h1 := h'.1 a c r hr
      rcases h.2 with rfl | h2
      · rw [hr] at e
        have := congrArg List.length e
        simp at this
      · omega
  rcases List.append_eq_append_iff.mp e with ⟨r, hr, -⟩ | ⟨r, hr, -⟩
  · rw [hr, key h h' e r hr, List.append_nil]
  · rw [hr, key h' h e.symm r hr, List.append_nil]

theorem exponentReads_is {e : Bytes} {x : ℤ} (h : ExponentReads e x) : F64.exponentOf e = x ∧ ∃ y, ExponentIs e y := by
  have key : ∀ {ds more : Bytes}, CutDigits ds more → F64.exponentDigits (ds ++ more) = decimal ds := by
    intro ds more hc
    obtain ⟨a, m, h1, h2, h3⟩ := cut_digits (ds ++ more)
    rw [h3, cutDigits_unique hc h2 h1]
  cases h with
  | none => exact ⟨rfl, _, .none⟩
  | plus he hs hd hne hc =>
    refine ⟨?_, _, .plus he hs hd hne⟩
    rename_i e s ds more
    rw [← key hc]
    rcases he with rfl | rfl <;> rcases hs with rfl | rfl
    · exact F64.exponentVal_plain hd hne
    · rfl
    · exact F64.exponentVal_plain hd hne
    · rfl
  | minus he hd hne hc =>
    refine ⟨?_, _, .minus he hd hne⟩
    rename_i e ds more
    rw [← key hc]
    rcases he with rfl | rfl <;> rfl

theorem exponentIs_reads {e : Bytes} {y : ℤ} (h : ExponentIs e y) : ExponentReads e (F64.exponentOf e) := by
  cases h with
  | none => exact .none
  | plus he hs hd hne =>
    rename_i e s ds
    obtain ⟨a, more, rfl, h2, h3⟩ := cut_digits ds
    have := ExponentReads.plus he hs hd hne h2
    rw [(exponentReads_is this).1]
    exact this
  | minus he hd hne =>
    rename_i e ds
    obtain ⟨a, more, rfl, h2, h3⟩ := cut_digits ds
    have := ExponentReads.minus he hd hne h2
    rw [(exponentReads_is this).1]
    exact this

/-- **C92** Every numeral, of any length, is taken for exactly one number and read as that number, rounded. -/
theorem C92_numeral {t : Bytes} {neg : Bool} {q : ℚ} (h : Denotes t neg q) :
    ∃ q', (∀ q'', TakenFor t neg q'' ↔ q'' = q') ∧ Rounded neg q' (FloatSem.value t) := by
  obtain ⟨s, i, p, f, e, x, rfl, hs, rfl, hi, hf, hne, hp, he, rfl⟩ := h
  refine ⟨signFactor (decide (s = b!"-")) * (decimal (i ++ f) * 10 ^ (F64.exponentOf e - f.length : ℤ)), fun q'' => ⟨?_, ?_⟩, ?_⟩
  · rintro ⟨s', i', p', f', e', x', ht, hs', hneg, hi', hf', hne', hp', he', rfl⟩
    obtain ⟨h1, y, h2⟩ := exponentReads_is he'
    obtain ⟨-, -, a2, a3, a4⟩ := F64.numeral_parts hs hi hf hne hp he
    obtain ⟨-, -, b2, b3, b4⟩ := F64.numeral_parts hs' hi' hf' hne' hp' h2
    rw [ht, b2] at a2
    rw [ht, b3] at a3
    rw [ht, b4] at a4
    rw [← a2, ← a3, ← a4, h1]
  · rintro rfl
    exact ⟨s, i, p, f, e, _, rfl, hs, rfl, hi, hf, hne, hp, exponentIs_reads he, rfl⟩
  · show Rounded _ _ (F64.value _)
    rw [F64.value_numeral hs hi hf hne hp he, F64.decimal_eq]
    exact F64.ofDecimal_rounded _ _ _

/-- **C92** A numeral of at most 65220 bytes, and one with an exponent below 655360, is read as the number it
denotes, rounded. -/
theorem C92_moderate {t : Bytes} {neg : Bool} {q : ℚ} (hm : Moderate t) (h : Denotes t neg q) :
    Rounded neg q (FloatSem.value t) :=
  F64.value_denotes hm h

theorem digitsVal_nines (n : Nat) : digitsVal (List.replicate n 57) = 10 ^ n - 1 := by
  induction n with
  | zero => rfl
  | succ n ih =>
    rw [List.replicate_succ', F64.digitsVal_concat, ih, Nat.pow_succ]
    have : 0 < 10 ^ n := by positivity
    have e : (57 : UInt8).toNat = 57 := rfl
    omega

/-- Nines and the exponent -655360. -/
def longNumeral (n : Nat) : Bytes := List.replicate n 57 ++ b!"e-655360"

theorem star_nines (n : Nat) : DigitsStar (List.replicate n 57) := by
  intro c hc
  rw [(List.mem_replicate.mp hc).2]; decide

theorem longNumeral_parts (n : Nat) (hn : n ≠ 0) : longNumeral n = [] ++ List.replicate n 57 ++ [] ++ [] ++ b!"e-655360" ∧
    ExponentIs b!"e-655360" (-655360) ∧ List.replicate n (57 : UInt8) ≠ [] :=
  ⟨by simp [longNumeral], .minus (e := b!"e") (ds := b!"655360") (.inl rfl) (by intro c; revert c; decide) (by decide), by simpa using hn⟩

theorem longNumeral_denotes (n : Nat) (hn : n ≠ 0) :
    Denotes (longNumeral n) false (signFactor false * (decimal (List.replicate n 57 ++ []) * 10 ^ (-655360 - (([] : Bytes).length : ℤ)))) := by
  obtain ⟨h1, h2, h3⟩ := longNumeral_parts n hn
  exact ⟨[], List.replicate n 57, [], [], b!"e-655360", -655360, h1, .inl rfl, by decide, star_nines n, (by rintro c ⟨⟩),
    .inl h3, .inr ⟨rfl, rfl⟩, h2, rfl⟩

theorem longNumeral_value (n : Nat) (hn : n ≠ 0) : F64.value (longNumeral n) = F64.ofDecimal false (10 ^ n - 1) (-65536) := by
  obtain ⟨h1, h2, h3⟩ := longNumeral_parts n hn
  rw [h1, F64.value_numeral (.inl rfl) (star_nines n) (by rintro c ⟨⟩) (.inl h3) (.inr ⟨rfl, rfl⟩) h2, List.append_nil, digitsVal_nines]
  rfl

/-- **C92** The bound of 65220 bytes cannot be raised: there is an accepted numeral of 65221 bytes that is read
as a number greater than 0 although it denotes a number so small that it is rounded to 0. -/
theorem C92_sharp : ∃ t : Bytes, t.length = 65221 ∧ isFloat t = true ∧
    (∀ x, Reads t x → x = F64.num false 0 (Nat.zero_le _)) ∧ FloatSem.value t = F64.num false 2 (by decide) ∧
    ¬ Reads t (FloatSem.value t) := by
  have hd := longNumeral_denotes 65213 (by decide)
  have hval : (FloatSem.value (longNumeral 65213) : F64) = F64.num false 2 (by decide) := by
    show F64.value _ = _
    rw [longNumeral_value 65213 (by decide)]
    decide +kernel
  have hlen : ∀ n, (longNumeral n).length = n + 8 := fun n => by simp [longNumeral]
  have hzero : ∀ x, Reads (longNumeral 65213) x → x = F64.num false 0 (Nat.zero_le _) := by
    intro x hx
    generalize ht : longNumeral 65213 = t at hx hval hd
    cases hx with
    | numeral hd' hr =>
      obtain ⟨rfl, rfl⟩ := F64.denotes_unique hd hd'
      refine F64.Rounded_unique hr (F64.rounded_small ?_)
      rw [abs_mul, F64.signFactor_abs, one_mul, abs_of_nonneg (mul_nonneg (Nat.cast_nonneg _) (zpow_nonneg (by norm_num) _))]
      refine F64.small_small (k := 65213) ?_ (by simp)
      have := F64.digitsVal_lt (star_nines 65213)
      rwa [F64.decimal_eq, List.length_replicate, ← List.append_nil (List.replicate _ _)] at this
    | inf hs hi => exact absurd ((F64.value_inf hs hi).symm.trans hval) (by simp [infBits])
    | nan hs hi => exact absurd ((F64.value_nan hs hi).symm.trans hval) nofun
  refine ⟨longNumeral 65213, hlen 65213, F64.denotes_isFloat hd, hzero, hval, ?_⟩
  intro h
  have := hzero _ h
  rw [hval] at this
  cases this

/-- The exponent of `1e655360` is cut to 65536. -/
example : Denotes b!"1e655360" false (signFactor false * ((decimal b!"1" : ℚ) * 10 ^ (655360 : ℤ))) ∧
    TakenFor b!"1e655360" false (signFactor false * ((decimal b!"1" : ℚ) * 10 ^ (65536 : ℤ))) := by
  have h1 : DigitsStar b!"1" := by intro c; revert c; decide
  have h0 : DigitsStar [] := by rintro c ⟨⟩
  constructor
  · exact ⟨[], b!"1", [], [], b!"e655360", 655360, rfl, .inl rfl, by decide, h1, h0, .inl (by decide), .inr ⟨rfl, rfl⟩,
      .plus (e := b!"e") (s := []) (ds := b!"655360") (.inl rfl) (.inl rfl) (by intro c; revert c; decide) (by decide), rfl⟩
  · refine ⟨[], b!"1", [], [], b!"e655360", 65536, rfl, .inl rfl, by decide, h1, h0, .inl (by decide), .inr ⟨rfl, rfl⟩,
      .plus (e := b!"e") (s := []) (ds := b!"65536") (more := b!"0") (.inl rfl) (.inl rfl)
        (by intro c; revert c; decide) (by decide) ⟨?_, .inr (by decide +kernel)⟩, rfl⟩
    intro p c r h
    have hp : p <+: b!"65536" := ⟨c :: r, h.symm⟩
    have hl : p.length < 5 := by
      have := congrArg List.length h
      simp at this
      omega
    have e := List.prefix_iff_eq_take.mp hp
    rw [e]
    generalize p.length = n at hl
    revert hl
    revert n
    have : ∀ n : Fin 5, decimal (List.take n.1 b!"65536") ≤ 65535 := by decide +kernel
    exact fun n hn => this ⟨n, hn⟩

/-- A numeral with a million digits and no exponent is read as the number it denotes, rounded. -/
example : Rounded false (signFactor false * (decimal (List.replicate 1000000 57 ++ []) * 10 ^ (0 - (([] : Bytes).length : ℤ))))
    (FloatSem.value (List.replicate 1000000 57)) := by
  generalize hn : 1000000 = n
  have h3 : List.replicate n (57 : UInt8) ≠ [] := by
    intro h
    have := congrArg List.length h
    rw [List.length_replicate] at this
    subst hn
    cases this
  refine C92_moderate (.inr ⟨_, [], 0, (List.append_nil _).symm, F64.digit_not_e (star_nines n), .none, by decide⟩)
    ⟨[], List.replicate n 57, [], [], [], 0, by simp, .inl rfl, by decide, star_nines n, (by rintro c ⟨⟩), .inl h3,
      .inr ⟨rfl, rfl⟩, .none, rfl⟩

end Verif.Props
