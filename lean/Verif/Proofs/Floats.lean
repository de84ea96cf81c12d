import Verif.Proofs.Numbers

/-!
# The strings that `str::parse::<f64>` accepts

The grammar in the documentation of `f64::from_str`, with every part named, is what the
scanner `isFloat` of `Verif.Basic` accepts.
-/

namespace Verif

/-- Nothing, `+` or `-`. -/
def Sign (s : Bytes) : Prop := s = [] ∨ s = b!"+" ∨ s = b!"-"

/-- Digits, perhaps none. -/
def DigitsStar (s : Bytes) : Prop := ∀ c ∈ s, 48 ≤ c ∧ c ≤ 57

/-- `w` is the lower case word `lc` in any mixture of cases. -/
def AnyCase (lc w : Bytes) : Prop := List.Forall₂ (fun l c => c = l ∨ c = l - 32) lc w

/-- Nothing, or `e` or `E`, a sign and at least one digit. -/
def Exponent (e : Bytes) : Prop :=
  e = [] ∨ ∃ m s ds, e = m ++ s ++ ds ∧ (m = b!"e" ∨ m = b!"E") ∧ Sign s ∧ DigitsStar ds ∧ ds ≠ []

/-- Digits, perhaps with a point among, before or after them: at least one digit. -/
def Mantissa (m : Bytes) : Prop :=
  (DigitsStar m ∧ m ≠ []) ∨
    ∃ i f, m = i ++ b!"." ++ f ∧ DigitsStar i ∧ DigitsStar f ∧ (i ≠ [] ∨ f ≠ [])

/-- A sign, and either a mantissa and an exponent, or `inf`, `infinity` or `nan` in any case. -/
def FloatToken (t : Bytes) : Prop :=
  ∃ s r, t = s ++ r ∧ Sign s ∧
    ((∃ m e, r = m ++ e ∧ Mantissa m ∧ Exponent e) ∨
      AnyCase b!"inf" r ∨ AnyCase b!"infinity" r ∨ AnyCase b!"nan" r)

theorem isDigit_iff {c : UInt8} : isDigit c = true ↔ 48 ≤ c ∧ c ≤ 57 := by
  simp [isDigit, UInt8.le_iff_toNat_le]

theorem star_all {s : Bytes} : DigitsStar s ↔ s.all isDigit = true := by
  rw [DigitsStar, List.all_eq_true]
  simp only [isDigit_iff]

/-- `s` is a sign followed by `r`. -/
theorem dropSign_eq (t : Bytes) : ∃ s, Sign s ∧ t = s ++ dropSign t := by
  unfold dropSign
  split
  · exact ⟨b!"+", .inr (.inl rfl), rfl⟩
  · exact ⟨b!"-", .inr (.inr rfl), rfl⟩
  · exact ⟨[], .inl rfl, rfl⟩

/-- What does not start with a sign. -/
def NoSign (r : Bytes) : Prop := ∀ c ∈ r.head?, c ≠ 43 ∧ c ≠ 45

theorem dropSign_append {s r : Bytes} (hs : Sign s) (hr : NoSign r) : dropSign (s ++ r) = r := by
  rcases hs with rfl | rfl | rfl
  · cases r with
    | nil => rfl
    | cons c r =>
      obtain ⟨h1, h2⟩ := hr c rfl
      unfold dropSign
      split
      · rename_i e; simp only [List.nil_append, List.cons.injEq] at e; exact absurd e.1 h1
      · rename_i e; simp only [List.nil_append, List.cons.injEq] at e; exact absurd e.1 h2
      · rfl
  · rfl
  · rfl

theorem isExpTail_iff {r : Bytes} : isExpTail r = true ↔
    ∃ s ds, r = s ++ ds ∧ Sign s ∧ DigitsStar ds ∧ ds ≠ [] := by
  unfold isExpTail
  simp only [Bool.and_eq_true, Bool.not_eq_true', List.isEmpty_eq_false_iff, ← star_all]
  constructor
  · rintro ⟨h1, h2⟩
    obtain ⟨s, hs, e⟩ := dropSign_eq r
    exact ⟨s, _, e, hs, h2, h1⟩
  · rintro ⟨s, ds, rfl, hs, hd, hne⟩
    have : dropSign (s ++ ds) = ds := dropSign_append hs (by
      intro c hc
      cases ds with
      | nil => cases hc
      | cons d ds =>
        obtain rfl := Option.some.inj hc
        have := hd d (by simp)
        constructor <;> (rintro rfl; exact absurd this (by decide)))
    rw [this]
    exact ⟨hne, hd⟩

/-- The scanner of the exponent. -/
def expOk (r : Bytes) : Bool :=
  match r with
  | [] => true
  | c :: r3 => (c == 101 || c == 69) && isExpTail r3

theorem expOk_iff {r : Bytes} : expOk r = true ↔ Exponent r := by
  unfold expOk Exponent
  cases r with
  | nil => simp
  | cons c r =>
    simp only [Bool.and_eq_true, Bool.or_eq_true, beq_iff_eq, isExpTail_iff, reduceCtorEq, false_or]
    constructor
    · rintro ⟨hc, s, ds, rfl, hs, hd, hne⟩
      rcases hc with rfl | rfl
      · exact ⟨b!"e", s, ds, rfl, .inl rfl, hs, hd, hne⟩
      · exact ⟨b!"E", s, ds, rfl, .inr rfl, hs, hd, hne⟩
    · rintro ⟨m, s, ds, e, hm, hs, hd, hne⟩
      rcases hm with rfl | rfl
      · simp only [List.cons_append, List.nil_append, List.cons.injEq] at e
        exact ⟨.inl e.1, s, ds, e.2, hs, hd, hne⟩
      · simp only [List.cons_append, List.nil_append, List.cons.injEq] at e
        exact ⟨.inr e.1, s, ds, e.2, hs, hd, hne⟩

theorem expOk_head {r : Bytes} (h : expOk r = true) : ∀ c ∈ r.head?, isDigit c = false ∧ c ≠ 46 := by
  intro c hc
  cases r with
  | nil => cases hc
  | cons d r =>
    obtain rfl := Option.some.inj hc
    simp only [expOk, Bool.and_eq_true, Bool.or_eq_true, beq_iff_eq] at h
    rcases h.1 with rfl | rfl <;> decide

theorem span_digits {a r : Bytes} (ha : DigitsStar a) (hr : ∀ c ∈ r.head?, isDigit c = false) :
    (a ++ r).takeWhile isDigit = a ∧ (a ++ r).dropWhile isDigit = r := by
  have ha' : ∀ c ∈ a, isDigit c = true := fun c hc => isDigit_iff.mpr (ha c hc)
  have er : r.takeWhile isDigit = [] ∧ r.dropWhile isDigit = r := by
    cases r with
    | nil => exact ⟨rfl, rfl⟩
    | cons c r => simp [hr c rfl]
  rw [List.takeWhile_append_of_pos ha', List.dropWhile_append_of_pos ha', er.1, er.2, List.append_nil]
  exact ⟨rfl, rfl⟩

theorem takeWhile_star (s : Bytes) : DigitsStar (s.takeWhile isDigit) := by
  induction s with
  | nil => intro c hc; cases hc
  | cons d s ih =>
    intro c hc
    by_cases hd : isDigit d = true
    · rw [List.takeWhile_cons_of_pos hd] at hc
      rcases List.mem_cons.mp hc with rfl | hc
      · exact isDigit_iff.mp hd
      · exact ih c hc
    · rw [List.takeWhile_cons_of_neg hd] at hc
      cases hc

/-- The digits after the point, if there is a point. -/
def fracOf : Bytes → Bytes
  | [] => []
  | c :: r => if c = 46 then r.takeWhile isDigit else []

/-- What follows the digits after the point, if there is a point. -/
def afterFrac : Bytes → Bytes
  | [] => []
  | c :: r => if c = 46 then r.dropWhile isDigit else c :: r

theorem isFloatNumber_eq (s : Bytes) : isFloatNumber s =
    ((!(s.takeWhile isDigit).isEmpty || !(fracOf (s.dropWhile isDigit)).isEmpty) &&
      expOk (afterFrac (s.dropWhile isDigit))) := by
  unfold isFloatNumber
  generalize s.dropWhile isDigit = r
  cases r with
  | nil => rfl
  | cons c r =>
    by_cases hc : c = 46
    · subst hc; rfl
    · have e1 : (match c :: r with | 46 :: r' => r'.takeWhile isDigit | _ => []) = fracOf (c :: r) := by
        split
        · rename_i e; simp only [List.cons.injEq] at e; exact absurd e.1 hc
        · simp [fracOf, hc]
      have e2 : (match c :: r with | 46 :: r' => r'.dropWhile isDigit | _ => c :: r) = afterFrac (c :: r) := by
        split
        · rename_i e; simp only [List.cons.injEq] at e; exact absurd e.1 hc
        · simp [afterFrac, hc]
      have e3 : ∀ x y : Bytes, x = fracOf (c :: r) → y = afterFrac (c :: r) →
          ((!(s.takeWhile isDigit).isEmpty || !x.isEmpty) && expOk y) =
          ((!(s.takeWhile isDigit).isEmpty || !(fracOf (c :: r)).isEmpty) && expOk (afterFrac (c :: r))) := by
        rintro _ _ rfl rfl; rfl
      exact e3 _ _ e1 e2

theorem isFloatNumber_iff {s : Bytes} : isFloatNumber s = true ↔
    ∃ m e, s = m ++ e ∧ Mantissa m ∧ Exponent e := by
  rw [isFloatNumber_eq]
  simp only [Bool.and_eq_true, Bool.or_eq_true, Bool.not_eq_true', List.isEmpty_eq_false_iff]
  constructor
  · intro h
    have es := (List.takeWhile_append_dropWhile (p := isDigit) (l := s)).symm
    have hi := takeWhile_star s
    generalize s.takeWhile isDigit = i at es hi h
    generalize s.dropWhile isDigit = r at es h
    cases r with
    | nil => exact ⟨i, [], es, .inl ⟨hi, h.1.resolve_right fun h => h rfl⟩, .inl rfl⟩
    | cons c r =>
      by_cases hc : c = 46
      · subst hc
        simp only [fracOf, afterFrac, if_true] at h
        have er := (List.takeWhile_append_dropWhile (p := isDigit) (l := r)).symm
        have hf := takeWhile_star r
        generalize r.takeWhile isDigit = f at er hf h
        generalize r.dropWhile isDigit = x at er h
        refine ⟨i ++ b!"." ++ f, x, ?_, .inr ⟨i, f, rfl, hi, hf, h.1⟩, expOk_iff.mp h.2⟩
        rw [es, er]
        simp
      · simp only [fracOf, afterFrac, hc, if_false] at h
        exact ⟨i, c :: r, es, .inl ⟨hi, h.1.resolve_right fun h => h rfl⟩, expOk_iff.mp h.2⟩
  · rintro ⟨m, e, rfl, hm, he⟩
    have he' := expOk_iff.mpr he
    have hh := expOk_head he'
    rcases hm with ⟨hd, hne⟩ | ⟨i, f, rfl, hi, hf, hne⟩
    · obtain ⟨e1, e2⟩ := span_digits hd (fun c hc => (hh c hc).1)
      rw [e1, e2]
      refine ⟨.inl hne, ?_⟩
      cases e with
      | nil => rfl
      | cons c r => rw [afterFrac, if_neg (hh c rfl).2]; exact he'
    · have ea : i ++ b!"." ++ f ++ e = i ++ (46 :: (f ++ e)) := by simp
      obtain ⟨e1, e2⟩ := span_digits (r := 46 :: (f ++ e)) hi (by intro c hc; obtain rfl := Option.some.inj hc; decide)
      obtain ⟨e3, e4⟩ := span_digits hf (fun c hc => (hh c hc).1)
      rw [ea, e1, e2, fracOf, afterFrac, if_pos rfl, if_pos rfl, e3, e4]
      exact ⟨hne, he'⟩

theorem lower_iff {l c : UInt8} (hl : 97 ≤ l ∧ l ≤ 122) : lower c = l ↔ c = l ∨ c = l - 32 := by
  rw [lower]
  simp only [UInt8.le_iff_toNat_le, ← UInt8.toNat_inj] at *
  have : (l - 32).toNat = l.toNat - 32 := UInt8.toNat_sub_of_le _ _ (by rw [UInt8.le_iff_toNat_le]; exact le_trans (by decide) hl.1)
  rw [this]
  split
  · rename_i h
    have hc := h
    rw [UInt8.toNat_add]
    simp at *
    omega
  · simp at *
    omega

theorem map_lower_iff {lc w : Bytes} (h : ∀ l ∈ lc, 97 ≤ l ∧ l ≤ 122) : w.map lower = lc ↔ AnyCase lc w := by
  unfold AnyCase
  induction lc generalizing w with
  | nil =>
    cases w with
    | nil => exact ⟨fun _ => .nil, fun _ => rfl⟩
    | cons c w => exact ⟨fun h => by (cases h), fun h => by (cases h)⟩
  | cons l lc ih =>
    cases w with
    | nil => exact ⟨fun h => by (cases h), fun h => by (cases h)⟩
    | cons c w =>
      rw [List.map_cons, List.cons.injEq, List.forall₂_cons, lower_iff (h l (by simp)), ih fun l hl => h l (by simp [hl])]

theorem mantissa_noSign {m e : Bytes} (hm : Mantissa m) : NoSign (m ++ e) := by
  have hd : ∀ {d : UInt8}, 48 ≤ d ∧ d ≤ 57 → d ≠ 43 ∧ d ≠ 45 := by
    intro d h
    constructor <;> (rintro rfl; exact absurd h (by decide))
  intro c hc
  rcases hm with ⟨h, hne⟩ | ⟨i, f, rfl, hi, -, -⟩
  · cases m with
    | nil => exact absurd rfl hne
    | cons d m =>
      obtain rfl := Option.some.inj hc
      exact hd (h d (by simp))
  · cases i with
    | nil => obtain rfl := Option.some.inj hc; decide
    | cons d m =>
      obtain rfl := Option.some.inj hc
      exact hd (hi d (by simp))

theorem anyCase_noSign {lc r : Bytes} (hl : ∀ l ∈ lc, 97 ≤ l ∧ l ≤ 122) (h : AnyCase lc r) : NoSign r := by
  cases h with
  | nil => intro c hc; cases hc
  | @cons l d lc r h _ =>
    intro c hc
    obtain rfl := Option.some.inj hc
    have := hl l (by simp)
    have hs : (l - 32).toNat = l.toNat - 32 := UInt8.toNat_sub_of_le _ _ (by rw [UInt8.le_iff_toNat_le]; exact le_trans (by decide) (UInt8.le_iff_toNat_le.mp this.1))
    simp only [UInt8.le_iff_toNat_le] at this
    rw [← UInt8.toNat_inj, ← UInt8.toNat_inj, hs] at h
    constructor <;> (rintro rfl; simp at *; omega)

theorem isFloat_iff {t : Bytes} : isFloat t = true ↔ FloatToken t := by
  have l1 : ∀ l ∈ b!"inf", 97 ≤ l ∧ l ≤ 122 := by decide
  have l2 : ∀ l ∈ b!"infinity", 97 ≤ l ∧ l ≤ 122 := by decide
  have l3 : ∀ l ∈ b!"nan", 97 ≤ l ∧ l ≤ 122 := by decide
  have key : ∀ r : Bytes, (isFloatNumber r ||
      (r.map lower == b!"inf" || r.map lower == b!"infinity" || r.map lower == b!"nan")) = true ↔
      ((∃ m e, r = m ++ e ∧ Mantissa m ∧ Exponent e) ∨
        AnyCase b!"inf" r ∨ AnyCase b!"infinity" r ∨ AnyCase b!"nan" r) := by
    intro r
    simp only [Bool.or_eq_true, beq_iff_eq]
    rw [isFloatNumber_iff, map_lower_iff l1, map_lower_iff l2, map_lower_iff l3, or_assoc (a := AnyCase _ _)]
  show (isFloatNumber (dropSign t) || _) = true ↔ _
  rw [key]
  constructor
  · intro h
    obtain ⟨s, hs, e⟩ := dropSign_eq t
    exact ⟨s, _, e, hs, h⟩
  · rintro ⟨s, r, rfl, hs, h⟩
    have hr : NoSign r := by
      rcases h with ⟨m, e, rfl, hm, -⟩ | h | h | h
      · exact mantissa_noSign hm
      · exact anyCase_noSign l1 h
      · exact anyCase_noSign l2 h
      · exact anyCase_noSign l3 h
    rw [dropSign_append hs hr]
    exact h

end Verif
