import Mathlib.Data.Nat.Digits.Defs
import Mathlib.Data.List.Induction
import Mathlib.Tactic.Ring
import Mathlib.Tactic.Tauto
import Verif.Basic

/-!
# Decimal numbers
-/

namespace Verif

theorem digitsVal_append (a b : Bytes) :
    digitsVal (a ++ b) = digitsVal a * 10 ^ b.length + digitsVal b := by
  induction b using List.reverseRecOn with
  | nil => simp [digitsVal]
  | append_singleton b c ih =>
    have e : ∀ (x : Bytes), digitsVal (x ++ [c]) = 10 * digitsVal x + (c.toNat - 48) := by
      intro x; simp [digitsVal]
    rw [← List.append_assoc, e, e, ih]
    simp [Nat.pow_succ]
    ring

theorem digitsVal_cons (c : UInt8) (ds : Bytes) :
    digitsVal (c :: ds) = (c.toNat - 48) * 10 ^ ds.length + digitsVal ds := by
  rw [show c :: ds = [c] ++ ds from rfl, digitsVal_append]
  simp [digitsVal]

/-- The value of a string of digits is the usual one. -/
theorem digitsVal_eq (ds : Bytes) :
    digitsVal ds = Nat.ofDigits 10 (ds.reverse.map fun c => c.toNat - 48) := by
  induction ds with
  | nil => simp [digitsVal]
  | cons c ds ih =>
    rw [digitsVal_cons, ih, List.reverse_cons, List.map_append, Nat.ofDigits_append]
    simp [Nat.ofDigits_singleton]
    ring

theorem parseDigits_iff {ds : Bytes} {n : Nat} :
    parseDigits ds = some n ↔ ds ≠ [] ∧ (∀ c ∈ ds, isDigit c = true) ∧ digitsVal ds = n := by
  unfold parseDigits
  split
  · rename_i h; simp only [Option.some.injEq]; rw [List.all_eq_true] at h; tauto
  · rename_i h; rw [List.all_eq_true] at h; simp only [reduceCtorEq, false_iff]; tauto

theorem parseUsize_plus (r : Bytes) :
    parseUsize (43 :: r) = (parseDigits r).bind fun n => if n ≤ usizeMax then some n else none := by
  unfold parseUsize
  simp only
  cases parseDigits r <;> rfl

theorem parseUsize_plain {t : Bytes} (h : ∀ r, t ≠ 43 :: r) :
    parseUsize t = (parseDigits t).bind fun n => if n ≤ usizeMax then some n else none := by
  unfold parseUsize
  split
  · exact absurd rfl (h _)
  · show (match parseDigits t with | none => none | some n => _) = _
    cases parseDigits t <;> rfl

/-- `some i` if `i` fits a 64-bit signed integer. -/
def fitsIsize (i : Int) : Option Int := if isizeMin ≤ i ∧ i ≤ isizeMax then some i else none

theorem parseIsize_plus (r : Bytes) :
    parseIsize (43 :: r) = (parseDigits r).bind fun n => fitsIsize n := by
  unfold parseIsize fitsIsize
  simp only
  cases parseDigits r <;> simp

theorem parseIsize_minus (r : Bytes) :
    parseIsize (45 :: r) = (parseDigits r).bind fun n => fitsIsize (-(n : Int)) := by
  unfold parseIsize fitsIsize
  simp only
  cases parseDigits r <;> simp

theorem parseIsize_plain {t : Bytes} (h : ∀ r, t ≠ 43 :: r) (h' : ∀ r, t ≠ 45 :: r) :
    parseIsize t = (parseDigits t).bind fun n => fitsIsize n := by
  unfold parseIsize fitsIsize
  split
  · exact absurd rfl (h _)
  · exact absurd rfl (h' _)
  · simp only
    cases parseDigits t <;> simp

theorem toNat_digit {k : Nat} (h : k < 10) : (UInt8.ofNat (48 + k)).toNat = 48 + k := by
  rw [UInt8.toNat_ofNat']; omega

theorem showNatAux_spec (fuel n : Nat) (acc : Bytes) (h : n < fuel) :
    ∃ ds : Bytes, showNatAux fuel n acc = ds ++ acc ∧ ds ≠ [] ∧ (∀ c ∈ ds, isDigit c = true) ∧
      digitsVal ds = n := by
  induction fuel generalizing n acc with
  | zero => omega
  | succ fuel ih =>
    have hm : n % 10 < 10 := Nat.mod_lt _ (by decide)
    have hd : isDigit (UInt8.ofNat (48 + n % 10)) = true := by
      unfold isDigit
      rw [toNat_digit hm]
      simp
      omega
    unfold showNatAux
    simp only
    split
    · rename_i h10
      refine ⟨[UInt8.ofNat (48 + n % 10)], by simp, by simp, by simpa using hd, ?_⟩
      simp only [digitsVal, List.foldl_cons, List.foldl_nil, toNat_digit hm]
      omega
    · rename_i h10
      obtain ⟨ds, e, h1, h2, h3⟩ := ih (n / 10) (UInt8.ofNat (48 + n % 10) :: acc) (by omega)
      refine ⟨ds ++ [UInt8.ofNat (48 + n % 10)], by rw [e]; simp, by simp, ?_, ?_⟩
      · intro c hc
        rcases List.mem_append.mp hc with hc | hc
        · exact h2 c hc
        · rw [List.mem_singleton.mp hc]; exact hd
      · rw [digitsVal_append, h3]
        simp only [digitsVal, List.foldl_cons, List.foldl_nil, toNat_digit hm, List.length_singleton]
        omega

theorem showNat_spec (n : Nat) :
    showNat n ≠ [] ∧ (∀ c ∈ showNat n, isDigit c = true) ∧ digitsVal (showNat n) = n := by
  obtain ⟨ds, e, h⟩ := showNatAux_spec (n + 1) n [] (by omega)
  rw [List.append_nil] at e
  unfold showNat
  rw [e]
  exact h

theorem parseDigits_showNat (n : Nat) : parseDigits (showNat n) = some n :=
  parseDigits_iff.mpr (showNat_spec n)

theorem showNat_head (n : Nat) {c : UInt8} {r : Bytes} (h : showNat n = c :: r) : c ≠ 43 ∧ c ≠ 45 := by
  have := (showNat_spec n).2.1 c (by rw [h]; simp)
  constructor <;> (rintro rfl; exact absurd this (by decide))

theorem parseUsize_showNat {n : Nat} (h : n ≤ usizeMax) : parseUsize (showNat n) = some n := by
  rw [parseUsize_plain fun r e => (showNat_head n e).1 rfl, parseDigits_showNat]
  simp [h]

theorem parseIsize_showNat {n : Nat} (h : (n : Int) ≤ isizeMax) :
    parseIsize (showNat n) = some (n : Int) := by
  rw [parseIsize_plain (fun r e => (showNat_head n e).1 rfl) (fun r e => (showNat_head n e).2 rfl),
    parseDigits_showNat]
  have h0 : isizeMin ≤ (n : Int) := by unfold isizeMin; omega
  simp [fitsIsize, h, h0]

theorem parseIsize_showInt {i : Int} (h1 : isizeMin ≤ i) (h2 : i ≤ isizeMax) :
    parseIsize (showInt i) = some i := by
  unfold showInt
  split
  · rename_i hi
    have : -(i.natAbs : Int) = i := by omega
    rw [parseIsize_minus, parseDigits_showNat, Option.bind_some, this]
    simp [fitsIsize, h1, h2]
  · rename_i hi
    have e : (i.natAbs : Int) = i := by omega
    rw [parseIsize_showNat (by omega), e]

/-- A string of digits with the usual decimal value `n`. -/
def Decimal (ds : Bytes) (n : Nat) : Prop :=
  ds ≠ [] ∧ (∀ c ∈ ds, 48 ≤ c ∧ c ≤ 57) ∧ n = Nat.ofDigits 10 (ds.reverse.map fun c => c.toNat - 48)

theorem decimal_iff {ds : Bytes} {n : Nat} : Decimal ds n ↔ parseDigits ds = some n := by
  rw [parseDigits_iff, Decimal, digitsVal_eq]
  have : ∀ c : UInt8, isDigit c = true ↔ 48 ≤ c ∧ c ≤ 57 := by
    intro c
    simp [isDigit, UInt8.le_iff_toNat_le]
  simp only [this]
  tauto

theorem decimal_head {ds : Bytes} {n : Nat} (h : Decimal ds n) {c : UInt8} {r : Bytes}
    (e : ds = c :: r) : c ≠ 43 ∧ c ≠ 45 := by
  have := h.2.1 c (by rw [e]; simp)
  constructor <;> (rintro rfl; exact absurd this (by decide))

theorem parseUsize_iff {t : Bytes} {n : Nat} :
    parseUsize t = some n ↔ ∃ ds, (t = ds ∨ t = 43 :: ds) ∧ Decimal ds n ∧ n ≤ 2 ^ 64 - 1 := by
  have key : ∀ r : Bytes, ((parseDigits r).bind fun n => if n ≤ usizeMax then some n else none) = some n ↔
      Decimal r n ∧ n ≤ 2 ^ 64 - 1 := by
    intro r
    rw [decimal_iff, Option.bind_eq_some_iff]
    constructor
    · rintro ⟨m, h1, h2⟩
      split at h2
      · rename_i hm; obtain rfl := Option.some.inj h2; exact ⟨h1, hm⟩
      · simp at h2
    · rintro ⟨h1, h2⟩; exact ⟨n, h1, if_pos h2⟩
  by_cases hp : ∃ r, t = 43 :: r
  · obtain ⟨r, rfl⟩ := hp
    rw [parseUsize_plus, key]
    constructor
    · exact fun h => ⟨r, .inr rfl, h⟩
    · rintro ⟨ds, rfl | e, h⟩
      · exact absurd rfl (decimal_head h.1 rfl).1
      · obtain ⟨-, rfl⟩ := List.cons.inj e; exact h
  · rw [parseUsize_plain fun r e => hp ⟨r, e⟩, key]
    constructor
    · exact fun h => ⟨t, .inl rfl, h⟩
    · rintro ⟨ds, rfl | e, h⟩
      · exact h
      · exact absurd ⟨ds, e⟩ hp

theorem fitsIsize_iff {a i : Int} : fitsIsize a = some i ↔ a = i ∧ -2 ^ 63 ≤ i ∧ i ≤ 2 ^ 63 - 1 := by
  unfold fitsIsize isizeMin isizeMax
  split
  · rename_i h; simp only [Option.some.injEq]; constructor
    · rintro rfl; exact ⟨rfl, h⟩
    · exact fun h => h.1
  · rename_i h; simp only [reduceCtorEq, false_iff]; rintro ⟨rfl, h'⟩; exact h h'

theorem parseIsize_iff {t : Bytes} {i : Int} :
    parseIsize t = some i ↔ ∃ ds n, Decimal ds n ∧
      (((t = ds ∨ t = 43 :: ds) ∧ i = n) ∨ (t = 45 :: ds ∧ i = -(n : Int))) ∧
      -2 ^ 63 ≤ i ∧ i ≤ 2 ^ 63 - 1 := by
  by_cases hp : ∃ r, t = 43 :: r
  · obtain ⟨r, rfl⟩ := hp
    rw [parseIsize_plus, Option.bind_eq_some_iff]
    simp only [fitsIsize_iff, ← decimal_iff]
    constructor
    · rintro ⟨n, h, rfl, h'⟩; exact ⟨r, n, h, .inl ⟨.inr rfl, rfl⟩, h'⟩
    · rintro ⟨ds, n, h, ⟨rfl | e, rfl⟩ | ⟨e, -⟩, h'⟩
      · exact absurd rfl (decimal_head h rfl).1
      · obtain ⟨-, rfl⟩ := List.cons.inj e; exact ⟨n, h, rfl, h'⟩
      · exact absurd (List.cons.inj e).1 (by decide)
  · by_cases hm : ∃ r, t = 45 :: r
    · obtain ⟨r, rfl⟩ := hm
      rw [parseIsize_minus, Option.bind_eq_some_iff]
      simp only [fitsIsize_iff, ← decimal_iff]
      constructor
      · rintro ⟨n, h, rfl, h'⟩; exact ⟨r, n, h, .inr ⟨rfl, rfl⟩, h'⟩
      · rintro ⟨ds, n, h, ⟨rfl | e, rfl⟩ | ⟨e, rfl⟩, h'⟩
        · exact absurd rfl (decimal_head h rfl).2
        · exact absurd (List.cons.inj e).1 (by decide)
        · obtain ⟨-, rfl⟩ := List.cons.inj e; exact ⟨n, h, rfl, h'⟩
    · rw [parseIsize_plain (fun r e => hp ⟨r, e⟩) (fun r e => hm ⟨r, e⟩), Option.bind_eq_some_iff]
      simp only [fitsIsize_iff, ← decimal_iff]
      constructor
      · rintro ⟨n, h, rfl, h'⟩; exact ⟨t, n, h, .inl ⟨.inl rfl, rfl⟩, h'⟩
      · rintro ⟨ds, n, h, ⟨rfl | e, rfl⟩ | ⟨e, rfl⟩, h'⟩
        · exact ⟨n, h, rfl, h'⟩
        · exact absurd ⟨_, e⟩ hp
        · exact absurd ⟨_, e⟩ hm

/-- A displayed number is a word: no slash, blank, end of line or `#`. -/
theorem showNat_bytes (n : Nat) : ∀ c ∈ showNat n, c ≠ 47 ∧ c ≠ 32 ∧ c ≠ 9 ∧ c ≠ 92 ∧ c ≠ 10 ∧ c ≠ 13 ∧ c ≠ 35 := by
  intro c hc
  have := (showNat_spec n).2.1 c hc
  refine ⟨?_, ?_, ?_, ?_, ?_, ?_, ?_⟩ <;> (rintro rfl; exact absurd this (by decide))

theorem splitByte_none {x : UInt8} (w : Bytes) (h : ∀ c ∈ w, c ≠ x) : splitByte x w = [w] := by
  induction w with
  | nil => rfl
  | cons c w ih =>
    rw [splitByte, if_neg (h c (by simp)), ih (fun d hd => h d (by simp [hd]))]

theorem splitByte_cons {x : UInt8} (w r : Bytes) (h : ∀ c ∈ w, c ≠ x) :
    splitByte x (w ++ x :: r) = w :: splitByte x r := by
  induction w with
  | nil => simp [splitByte]
  | cons c w ih =>
    rw [List.cons_append, splitByte, if_neg (h c (by simp)), ih (fun d hd => h d (by simp [hd]))]

end Verif
