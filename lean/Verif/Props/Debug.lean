import Verif.Proofs.Debug
import Verif.Proofs.FloatShow
import Verif.Props.Context
import Verif.Props.Float

/-!
# Property C102: the Debug text of a value identifies it

The strings in a value are strings of characters: `Utf8`.
-/

namespace Verif.F64

open Verif Verif.Spec

/-! ## Numbers -/

set_option exponentiation.threshold 3000

/-- More than any `d` of the shortest `d * 10^x`. -/
def manyDigits : Nat := 2 ^ 2200 * 10 ^ 1075 + 1

theorem shortest_bounds (bits : Nat) : ∀ (fuel : Nat) (x : Int), x ≤ 309 → -(1075 : Int) ≤ x - fuel →
    -(1075 : Int) ≤ (shortest bits fuel x).2 ∧ (shortest bits fuel x).2 ≤ 309 ∧
      (shortest bits fuel x).1 ≤ units bits * 10 ^ 1075 + 1 := by
  intro fuel
  induction fuel with
  | zero => intro x h1 h2; exact ⟨by simpa [shortest] using h2, h1, Nat.zero_le _⟩
  | succ fuel ih =>
    intro x h1 h2
    have hd : units bits * 10 ^ (-x).toNat / (2 ^ 1074 * 10 ^ x.toNat) ≤ units bits * 10 ^ 1075 :=
      (Nat.div_le_self _ _).trans (Nat.mul_le_mul_left _ (Nat.pow_le_pow_right (by decide) (by omega)))
    unfold shortest
    simp only
    split
    · exact ⟨by simp only; omega, h1, Nat.succ_le_succ hd⟩
    · split
      · exact ⟨by simp only; omega, h1, hd.trans (Nat.le_succ _)⟩
      · exact ih _ (by omega) (by omega)

theorem manyDigits_le {u d : Nat} (hu : u < 2 ^ 2200) (h : d ≤ u * 10 ^ 1075 + 1) : d ≤ manyDigits :=
  h.trans (Nat.succ_le_succ (Nat.mul_le_mul_right _ hu.le))

theorem units_lt {bits : Nat} (h : bits ≤ infBits) : units bits < 2 ^ 2200 := by
  unfold units
  split
  · refine lt_of_lt_of_le (Nat.mod_lt _ (by decide)) (Nat.pow_le_pow_right (by decide) (by decide))
  · have h1 : bits / 2 ^ 52 ≤ 2047 := by
      have : bits ≤ 2047 * 2 ^ 52 := h
      omega
    have h2 : 2 ^ 52 + bits % 2 ^ 52 < 2 ^ 53 := by omega
    calc _ ≤ (2 ^ 52 + bits % 2 ^ 52) * 2 ^ 2047 := Nat.mul_le_mul_left _ (Nat.pow_le_pow_right (by decide) (by omega))
      _ < 2 ^ 53 * 2 ^ 2047 := Nat.mul_lt_mul_of_pos_right h2 (by positivity)
      _ ≤ 2 ^ 2200 := by rw [← pow_add]; exact Nat.pow_le_pow_right (by decide) (by decide)

theorem showInt_exponent (y : Int) : ExponentIs (b!"e" ++ showInt y) y := by
  unfold showInt
  have h := fun n => (showNat_spec n).1
  split
  · have := ExponentIs.minus (e := b!"e") (.inl rfl) (star_showNat y.natAbs) (h _)
    rw [← decimal_eq, (showNat_spec _).2.2] at this
    rwa [show -(y.natAbs : ℤ) = y by omega] at this
  · have := ExponentIs.plus (e := b!"e") (s := []) (.inl rfl) (.inl rfl) (star_showNat y.natAbs) (h _)
    rw [← decimal_eq, (showNat_spec _).2.2] at this
    rwa [show (y.natAbs : ℤ) = y by omega] at this

theorem scientific_denotes (neg : Bool) (d : Nat) (x : Int) :
    Denotes ((if neg then b!"-" else []) ++ scientific d x) neg (signFactor neg * (d * 10 ^ x)) := by
  have hsign : Sign (if neg then b!"-" else []) := by cases neg; exact .inl rfl; exact .inr (.inr rfl)
  have hneg : neg = decide ((if neg then b!"-" else []) = b!"-") := by cases neg <;> decide
  generalize (if neg then b!"-" else []) = sg at hsign hneg
  obtain ⟨h1, -, h3⟩ := showNat_spec d
  have h2 := star_showNat d
  have hpos : 0 < (showNat d).length := List.length_pos_iff.mpr h1
  refine ⟨sg, (showNat d).take 1, if (showNat d).length = 1 then [] else b!".", (showNat d).drop 1,
    b!"e" ++ showInt (x + (showNat d).length - 1), _, ?_, hsign, hneg, fun c hc => h2 c (List.mem_of_mem_take hc),
    fun c hc => h2 c (List.mem_of_mem_drop hc), .inl ?_, ?_, showInt_exponent _, ?_⟩
  · unfold scientific
    split
    · rename_i h
      rw [List.drop_eq_nil_of_le (by omega)]
      simp
    · simp
  · intro hc
    have := congrArg List.length hc
    rw [List.length_take, List.length_nil] at this
    omega
  · split
    · rename_i h
      exact .inr ⟨rfl, List.drop_eq_nil_of_le (by omega)⟩
    · exact .inl rfl
  · rw [List.take_append_drop, ← decimal_eq, h3, List.length_drop]
    congr 3
    omega

theorem pointed_denotes (neg : Bool) (d : Nat) (x : Int) :
    Denotes ((if neg then b!"-" else []) ++ pointed d x) neg (signFactor neg * (d * 10 ^ x)) := by
  unfold pointed
  by_cases h : 0 ≤ x
  · rw [if_pos h]
    have hsign : Sign (if neg then b!"-" else []) := by cases neg; exact .inl rfl; exact .inr (.inr rfl)
    have hneg : neg = decide ((if neg then b!"-" else []) = b!"-") := by cases neg <;> decide
    generalize (if neg then b!"-" else []) = sg at hsign hneg
    obtain ⟨h1, -, h3⟩ := showNat_spec d
    obtain ⟨k, rfl⟩ := Int.eq_ofNat_of_zero_le h
    refine ⟨sg, showNat d ++ List.replicate k 48, b!".", b!"0", [], 0, ?_, hsign, hneg, star_append (star_showNat d) (star_zeros k),
      star_zeros 1, .inr (by decide), .inl rfl, .none, ?_⟩
    · simp [plain]
    · have e : (showNat d ++ List.replicate k 48) ++ b!"0" = showNat d ++ List.replicate (k + 1) 48 := by
        rw [List.replicate_succ']; simp
      rw [e, ← decimal_eq, digitsVal_append, digitsVal_zeros, h3]
      have : (10 : ℚ) ≠ 0 := by norm_num
      push_cast
      rw [zero_sub, show ((b!"0" : Bytes).length : ℤ) = 1 from rfl, zpow_neg_one, zpow_natCast, List.length_replicate, pow_succ, add_zero]
      field_simp
  · rw [if_neg h]
    exact plain_denotes neg d x

theorem pointed_point (d : Nat) (x : Int) : 46 ∈ pointed d x := by
  unfold pointed
  by_cases hx : 0 ≤ x
  · rw [if_pos hx]
    exact List.mem_append_right _ (by decide)
  · rw [if_neg hx]
    unfold plain
    simp only [if_neg hx]
    split <;> simp

theorem scientific_e (d : Nat) (x : Int) : 101 ∈ scientific d x := by
  unfold scientific
  exact List.mem_append_left _ (List.mem_append_right _ (by decide))

attribute [local irreducible] shortest plain ofDecimal scientific pointed largeBits smallBits

theorem debug_inf (neg : Bool) {h} : FloatDebug.debug (F64.num neg infBits h) = (if neg then b!"-" else []) ++ b!"inf" := by
  simp only [FloatDebug.debug, if_true]

theorem debug_zero (neg : Bool) {h} : FloatDebug.debug (F64.num neg 0 h) = (if neg then b!"-" else []) ++ b!"0.0" := by
  simp only [FloatDebug.debug, if_neg (show 0 ≠ infBits by decide), if_true]

theorem debug_other (neg : Bool) {bits : Nat} {h} (h1 : bits ≠ infBits) (h2 : bits ≠ 0) :
    FloatDebug.debug (F64.num neg bits h) = (if neg then b!"-" else []) ++
      if largeBits ≤ bits ∨ bits < smallBits then scientific (shortest bits 1384 309).1 (shortest bits 1384 309).2
      else pointed (shortest bits 1384 309).1 (shortest bits 1384 309).2 := by
  simp only [FloatDebug.debug, if_neg h1, if_neg h2]

theorem debug_denotes (neg : Bool) {bits : Nat} {h} (h1 : bits ≠ infBits) (h2 : bits ≠ 0) :
    Denotes (FloatDebug.debug (F64.num neg bits h)) neg
      (signFactor neg * ((shortest bits 1384 309).1 * 10 ^ (shortest bits 1384 309).2)) := by
  rw [debug_other neg h1 h2]
  generalize shortest bits 1384 309 = p
  by_cases hb : largeBits ≤ bits ∨ bits < smallBits
  · rw [if_pos hb]
    exact scientific_denotes neg _ _
  · rw [if_neg hb]
    exact pointed_denotes neg _ _

theorem showNat_short {d : Nat} (h : d ≤ manyDigits) : (showNat d).length ≤ 3300 :=
  Props.showNat_length_lt (lt_of_le_of_lt h (by decide +kernel)) (by decide)

theorem sign_not_e (neg : Bool) : ∀ c ∈ (if neg then b!"-" else []), c ≠ 101 ∧ c ≠ 69 := by
  cases neg
  · intro c hc; cases hc
  · decide

theorem scientific_moderate (neg : Bool) {d : Nat} {x : Int} (hd : d ≤ manyDigits) (h1 : -(1075 : Int) ≤ x)
    (h2 : x ≤ 309) : Moderate ((if neg then b!"-" else []) ++ scientific d x) := by
  have hl := showNat_short hd
  have hpos : 0 < (showNat d).length := List.length_pos_iff.mpr (showNat_spec d).1
  have he : ∀ c ∈ showNat d, c ≠ 101 ∧ c ≠ 69 := digit_not_e (star_showNat d)
  refine .inr ⟨(if neg then b!"-" else []) ++ ((showNat d).take 1 ++
    (if (showNat d).length = 1 then [] else b!"." ++ (showNat d).drop 1)),
    b!"e" ++ showInt (x + (showNat d).length - 1), _, ?_, ?_, showInt_exponent _, ?_⟩
  · simp only [scientific, List.append_assoc]
  · intro c hc
    rcases List.mem_append.mp hc with hc | hc
    · exact sign_not_e neg c hc
    rcases List.mem_append.mp hc with hc | hc
    · exact he c (List.mem_of_mem_take hc)
    · split at hc
      · cases hc
      · rcases List.mem_cons.mp hc with rfl | hc
        · decide
        · exact he c (List.mem_of_mem_drop hc)
  · rw [abs_lt]
    omega

theorem pointed_moderate (neg : Bool) (d : Nat) (x : Int) : Moderate ((if neg then b!"-" else []) ++ pointed d x) := by
  refine .inr ⟨_, [], 0, (List.append_nil _).symm, ?_, .none, by decide⟩
  intro c hc
  rcases List.mem_append.mp hc with hc | hc
  · exact sign_not_e neg c hc
  · have hp : ∀ c ∈ plain d x, c ≠ 101 ∧ c ≠ 69 := by
      intro c hc
      rcases plain_chars d x c hc with ⟨-, h⟩ | rfl
      · constructor <;> (rintro rfl; revert h; decide)
      · decide
    unfold pointed at hc
    split at hc
    · rcases List.mem_append.mp hc with hc | hc
      · exact hp c hc
      · have : ∀ c ∈ b!".0", c ≠ 101 ∧ c ≠ 69 := by decide
        exact this c hc
    · exact hp c hc

theorem debug_moderate (x : F64) : Moderate (FloatDebug.debug x) := by
  cases x with
  | nan => exact .inl (by decide)
  | num neg bits h =>
    by_cases h1 : bits = infBits
    · subst h1; rw [debug_inf]; exact .inl (by cases neg <;> decide)
    · by_cases h2 : bits = 0
      · subst h2; rw [debug_zero]; exact .inl (by cases neg <;> decide)
      · rw [debug_other neg h1 h2]
        obtain ⟨b1, b2, b3⟩ := shortest_bounds bits 1384 309 (by decide) (by decide)
        have b3' := manyDigits_le (units_lt h) b3
        generalize shortest bits 1384 309 = p at *
        by_cases hb : largeBits ≤ bits ∨ bits < smallBits
        · rw [if_pos hb]
          exact scientific_moderate neg b3' b1 b2
        · rw [if_neg hb]
          exact pointed_moderate neg _ _

theorem debug_isFloat (x : F64) : isFloat (FloatDebug.debug x) = true := by
  cases x with
  | nan => decide +kernel
  | num neg bits h =>
    by_cases h1 : bits = infBits
    · subst h1; rw [debug_inf]; cases neg <;> decide +kernel
    · by_cases h2 : bits = 0
      · subst h2; rw [debug_zero]; cases neg <;> decide +kernel
      · exact denotes_isFloat (debug_denotes neg h1 h2)

theorem value_debug (x : F64) : value (FloatDebug.debug x) = x := by
  cases x with
  | nan => decide +kernel
  | num neg bits h =>
    by_cases h1 : bits = infBits
    · subst h1; rw [debug_inf]; cases neg <;> (revert h; decide +kernel)
    · by_cases h2 : bits = 0
      · subst h2; rw [debug_zero]; cases neg <;> (revert h; decide +kernel)
      · have hr := value_denotes (debug_moderate (F64.num neg bits h)) (debug_denotes neg h1 h2)
        rw [Rounded_unique hr (ofDecimal_rounded neg _ _)]
        exact (roundsTo_iff h neg).mp (shortest_rounds h 1384 309 (by decide) (by decide))

/-- The text has a point, an exponent or letters. -/
theorem debug_mark (x : F64) : ∃ c ∈ FloatDebug.debug x, c = 46 ∨ c = 101 ∨ c = 102 ∨ c = 97 := by
  cases x with
  | nan => exact ⟨97, show (97 : UInt8) ∈ b!"NaN" by decide, by decide⟩
  | num neg bits h =>
    by_cases h1 : bits = infBits
    · subst h1; rw [debug_inf]; exact ⟨102, by cases neg <;> decide, by decide⟩
    · by_cases h2 : bits = 0
      · subst h2; rw [debug_zero]; exact ⟨46, by cases neg <;> decide, by decide⟩
      · rw [debug_other neg h1 h2]
        generalize shortest bits 1384 309 = p
        by_cases hb : largeBits ≤ bits ∨ bits < smallBits
        · rw [if_pos hb]
          exact ⟨101, List.mem_append_right _ (scientific_e _ _), by decide⟩
        · rw [if_neg hb]
          refine ⟨46, List.mem_append_right _ ?_, by decide⟩
          exact pointed_point _ _

end Verif.F64

namespace Verif.Props

open Verif Verif.Spec Verif.Debug

/-- The `Debug` text of a number is read as the number. -/
class LawfulDebug (F : Type) [FloatSem F] [FloatDebug F] : Prop where
  isFloat_debug (x : F) : isFloat (FloatDebug.debug x) = true
  value_debug (x : F) : FloatSem.value (FloatDebug.debug x) = x

instance : LawfulDebug F64 := ⟨F64.debug_isFloat, F64.value_debug⟩

theorem float_bytes {t : Bytes} (h : FloatToken t) : ∀ c ∈ t,
    c = 43 ∨ c = 45 ∨ c = 46 ∨ (48 ≤ c ∧ c ≤ 57) ∨ (65 ≤ c ∧ c ≤ 90) ∨ (97 ≤ c ∧ c ≤ 122) := by
  have anyCase : ∀ (l w : Bytes), AnyCase l w → (∀ c ∈ l, 97 ≤ c ∧ c ≤ 122) →
      ∀ c ∈ w, (65 ≤ c ∧ c ≤ 90) ∨ (97 ≤ c ∧ c ≤ 122) := by
    intro l w h
    induction h with
    | nil => intro _ c hc; cases hc
    | @cons a b l w hab _ ih =>
      intro hl c hc
      rcases List.mem_cons.mp hc with rfl | hc
      · have := hl a List.mem_cons_self
        rcases hab with rfl | rfl
        · exact .inr this
        · left
          have e : (a - 32).toNat = a.toNat - 32 := UInt8.toNat_sub_of_le _ _ (UInt8.le_trans (by decide) this.1)
          simp only [UInt8.le_iff_toNat_le, e] at this ⊢
          have : 97 ≤ a.toNat ∧ a.toNat ≤ 122 := this
          exact ⟨show 65 ≤ a.toNat - 32 by omega, show a.toNat - 32 ≤ 90 by omega⟩
      · exact ih (fun c hc => hl c (List.mem_cons_of_mem _ hc)) c hc
  have sign : ∀ s, Sign s → ∀ c ∈ s, c = 43 ∨ c = 45 := by
    rintro s (rfl | rfl | rfl) c hc
    · cases hc
    · exact .inl (List.mem_singleton.mp hc)
    · exact .inr (List.mem_singleton.mp hc)
  obtain ⟨s, r, rfl, hs, hr⟩ := h
  intro c hc
  rcases List.mem_append.mp hc with hc | hc
  · rcases sign s hs c hc with h | h <;> simp [h]
  rcases hr with ⟨m, e, rfl, hm, he⟩ | hr | hr | hr
  · rcases List.mem_append.mp hc with hc | hc
    · rcases hm with ⟨hm, -⟩ | ⟨i, f, rfl, hi, hf, -⟩
      · have := hm c hc; simp [this]
      · rcases List.mem_append.mp hc with hc | hc
        · rcases List.mem_append.mp hc with hc | hc
          · have := hi c hc; simp [this]
          · obtain rfl := List.mem_singleton.mp hc; simp
        · have := hf c hc; simp [this]
    · rcases he with rfl | ⟨m, s, ds, rfl, hm, hs, hd, -⟩
      · cases hc
      · rcases List.mem_append.mp hc with hc | hc
        · rcases List.mem_append.mp hc with hc | hc
          · rcases hm with rfl | rfl <;> (obtain rfl := List.mem_singleton.mp hc; decide)
          · rcases sign s hs c hc with h | h <;> simp [h]
        · have := hd c hc; simp [this]
  · rcases anyCase _ _ hr (by decide) c hc with h | h <;> simp [h]
  · rcases anyCase _ _ hr (by decide) c hc with h | h <;> simp [h]
  · rcases anyCase _ _ hr (by decide) c hc with h | h <;> simp [h]

section
variable {F : Type} [FloatSem F] [FloatDebug F] [LawfulDebug F]

theorem code_float : Code (Debug.float (F := F)) (fun _ => True) := by
  refine code_word (fun x => ?_) (fun a b h => ?_)
  · have hf := LawfulDebug.isFloat_debug x
    refine ⟨?_, ascii_stops fun c hc => ?_⟩
    · intro e
      have : FloatDebug.debug x = [] := by simpa [Debug.float, ascii] using e
      rw [this] at hf
      exact absurd hf (by decide)
    · have := float_bytes (isFloat_iff.mp hf) c hc
      refine ⟨?_, ?_, ?_, ?_, ?_⟩ <;> (rintro rfl; revert this; decide)
  · rw [← LawfulDebug.value_debug a, ascii_injective h, LawfulDebug.value_debug b]

theorem code_vertex : Code (Obj.Vertex.debug (F := F)) (fun _ => True) := by
  refine ⟨fun {a b} _ _ => ?_, fun _ => ⟨_, _, rfl, by decide⟩⟩
  refine (link_struct (.cons (code_float.link trivial trivial)
    (.cons (code_float.link trivial trivial)
    (.cons (code_float.link trivial trivial)
    (.one (code_float.link trivial trivial)))))).imp ?_
  obtain ⟨⟩ := a; obtain ⟨⟩ := b
  rintro ⟨rfl, rfl, rfl, rfl⟩; rfl

theorem code_texture : Code (Obj.TextureVertex.debug (F := F)) (fun _ => True) := by
  refine ⟨fun {a b} _ _ => ?_, fun _ => ⟨_, _, rfl, by decide⟩⟩
  refine (link_struct (.cons (code_float.link trivial trivial)
    (.cons (code_float.link trivial trivial)
    (.one (code_float.link trivial trivial))))).imp ?_
  obtain ⟨⟩ := a; obtain ⟨⟩ := b
  rintro ⟨rfl, rfl, rfl⟩; rfl

theorem code_normal : Code (Obj.NormalVertex.debug (F := F)) (fun _ => True) := by
  refine ⟨fun {a b} _ _ => ?_, fun _ => ⟨_, _, rfl, by decide⟩⟩
  refine (link_struct (.cons (code_float.link trivial trivial)
    (.cons (code_float.link trivial trivial)
    (.one (code_float.link trivial trivial))))).imp ?_
  obtain ⟨⟩ := a; obtain ⟨⟩ := b
  rintro ⟨rfl, rfl, rfl⟩; rfl

theorem code_color : Code (Mtl.Color.debug (F := F)) (fun _ => True) := by
  refine ⟨fun {a b} _ _ => ?_, fun _ => ⟨_, _, rfl, by decide⟩⟩
  refine (link_struct (.cons (code_float.link trivial trivial)
    (.cons (code_float.link trivial trivial)
    (.one (code_float.link trivial trivial))))).imp ?_
  obtain ⟨⟩ := a; obtain ⟨⟩ := b
  rintro ⟨rfl, rfl, rfl⟩; rfl

theorem code_triple : Code (Obj.VTNTriple.debug (F := F)) (fun _ => True) := by
  have hv := code_vertex (F := F)
  have ht := code_texture (F := F)
  have hn := code_normal (F := F)
  constructor
  · intro a b _ _
    cases a <;> cases b <;> refine link_tuple (by decide) (by decide) fun e => ?_ <;> first | exact absurd e (by decide) | skip
    · intro s t hs ht' e
      obtain ⟨rfl, e'⟩ := Links.one (hv.link trivial trivial) s t hs ht' e
      exact ⟨rfl, e'⟩
    · intro s t hs ht' e
      obtain ⟨⟨rfl, rfl⟩, e'⟩ := Links.cons (hv.link trivial trivial) (.one (ht.link trivial trivial)) s t hs ht' e
      exact ⟨rfl, e'⟩
    · intro s t hs ht' e
      obtain ⟨⟨rfl, rfl⟩, e'⟩ := Links.cons (hv.link trivial trivial) (.one (hn.link trivial trivial)) s t hs ht' e
      exact ⟨rfl, e'⟩
    · intro s t hs ht' e
      obtain ⟨⟨rfl, rfl, rfl⟩, e'⟩ := Links.cons (hv.link trivial trivial)
        (.cons (ht.link trivial trivial) (.one (hn.link trivial trivial))) s t hs ht' e
      exact ⟨rfl, e'⟩
  · intro a _
    cases a <;> exact ⟨_, _, rfl, by decide⟩

end

theorem code_index : Code Obj.VTNIndex.debug (fun _ => True) := by
  have hu := code_usize
  constructor
  · intro a b _ _
    cases a <;> cases b <;> refine link_tuple (by decide) (by decide) fun e => ?_ <;> first | exact absurd e (by decide) | skip
    · intro s t hs ht e
      obtain ⟨rfl, e'⟩ := Links.one (hu.link trivial trivial) s t hs ht e
      exact ⟨rfl, e'⟩
    · intro s t hs ht e
      obtain ⟨⟨rfl, rfl⟩, e'⟩ := Links.cons (hu.link trivial trivial) (.one (hu.link trivial trivial)) s t hs ht e
      exact ⟨rfl, e'⟩
    · intro s t hs ht e
      obtain ⟨⟨rfl, rfl⟩, e'⟩ := Links.cons (hu.link trivial trivial) (.one (hu.link trivial trivial)) s t hs ht e
      exact ⟨rfl, e'⟩
    · intro s t hs ht e
      obtain ⟨⟨rfl, rfl, rfl⟩, e'⟩ := Links.cons (hu.link trivial trivial)
        (.cons (hu.link trivial trivial) (.one (hu.link trivial trivial))) s t hs ht e
      exact ⟨rfl, e'⟩
  · intro a _
    cases a <;> exact ⟨_, _, rfl, by decide⟩

theorem code_element : Code Obj.Element.debug (fun _ => True) := by
  have hu := code_index
  constructor
  · intro a b _ _
    cases a <;> cases b <;> refine link_tuple (by decide) (by decide) fun e => ?_ <;> first | exact absurd e (by decide) | skip
    · intro s t hs ht e
      obtain ⟨rfl, e'⟩ := Links.one (hu.link trivial trivial) s t hs ht e
      exact ⟨rfl, e'⟩
    · intro s t hs ht e
      obtain ⟨⟨rfl, rfl⟩, e'⟩ := Links.cons (hu.link trivial trivial) (.one (hu.link trivial trivial)) s t hs ht e
      exact ⟨rfl, e'⟩
    · intro s t hs ht e
      obtain ⟨⟨rfl, rfl, rfl⟩, e'⟩ := Links.cons (hu.link trivial trivial)
        (.cons (hu.link trivial trivial) (.one (hu.link trivial trivial))) s t hs ht e
      exact ⟨rfl, e'⟩
  · intro a _
    cases a <;> exact ⟨_, _, rfl, by decide⟩

theorem code_group (plain : Char → Bool) : Code (Obj.Group.debug plain) (fun g => Utf8 g.name) := by
  refine ⟨fun {a b} ha hb => ?_, fun _ => ⟨_, _, rfl, by decide⟩⟩
  refine link_tuple (by decide) (by decide) fun _ => .one (((code_string plain).link ha hb).imp ?_)
  obtain ⟨⟩ := a; obtain ⟨⟩ := b
  rintro rfl; rfl

theorem code_smoothing : Code Obj.SmoothingGroup.debug (fun _ => True) := by
  refine ⟨fun {a b} ha hb => ?_, fun _ => ⟨_, _, rfl, by decide⟩⟩
  refine link_tuple (by decide) (by decide) fun _ => .one ((code_usize.link trivial trivial).imp ?_)
  obtain ⟨⟩ := a; obtain ⟨⟩ := b
  rintro rfl; rfl

theorem code_shape : Code Obj.ShapeEntry.debug (fun _ => True) := by
  refine ⟨fun {a b} _ _ => ?_, fun _ => ⟨_, _, rfl, by decide⟩⟩
  refine (link_struct (.cons (code_usize.link trivial trivial)
    (.cons ((code_vec code_usize).link (fun _ _ => trivial) (fun _ _ => trivial))
    (.one (code_usize.link trivial trivial))))).imp ?_
  obtain ⟨⟩ := a; obtain ⟨⟩ := b
  rintro ⟨rfl, rfl, rfl⟩; rfl

theorem code_geometry (plain : Char → Bool) : Code (Obj.Geometry.debug plain) (fun g => ∀ n ∈ g.material_name, Utf8 n) := by
  refine ⟨fun {a b} ha hb => ?_, fun _ => ⟨_, _, rfl, by decide⟩⟩
  refine (link_struct (.cons ((code_option (code_string plain)).link ha hb)
    (.one ((code_vec code_usize).link (fun _ _ => trivial) (fun _ _ => trivial))))).imp ?_
  obtain ⟨⟩ := a; obtain ⟨⟩ := b
  rintro ⟨rfl, rfl⟩; rfl

/-- The strings in an object. -/
def objectStrings {F : Type} (o : Obj.Object F) : List Bytes :=
  o.name :: (o.group_set.map Obj.Group.name ++ o.geometry_set.filterMap Obj.Geometry.material_name)

/-- The strings in a set of objects. -/
def setStrings {F : Type} (r : Obj.ObjectSet F) : List Bytes := r.material_libraries ++ r.objects.flatMap objectStrings

/-- The strings in a material. -/
def materialStrings {F : Type} (m : Mtl.Material F) : List Bytes :=
  m.name :: [m.map_ambient, m.map_diffuse, m.map_specular, m.map_emissive, m.map_specular_exponent, m.map_bump,
    m.map_displacement, m.map_dissolve, m.map_decal].filterMap id

theorem code_kind : Code Obj.ErrorKind.debug (fun _ => True) :=
  code_word (fun a => by cases a <;> decide) (fun a b h => by cases a <;> cases b <;> first | rfl | exact absurd h (by decide))

theorem code_mtl_kind : Code Mtl.ErrorKind.debug (fun _ => True) :=
  code_word (fun a => by cases a <;> decide) (fun a b h => by cases a <;> cases b <;> first | rfl | exact absurd h (by decide))

theorem code_model : Code Mtl.IlluminationModel.debug (fun _ => True) :=
  code_word (fun a => by cases a <;> decide) (fun a b h => by cases a <;> cases b <;> first | rfl | exact absurd h (by decide))

theorem code_error {K : Type} (plain : Char → Bool) {kind : K → Text} (h : Code kind (fun _ => True)) :
    Code (ParseError.debug plain kind) (fun e => Utf8 e.message) := by
  refine ⟨fun {a b} ha hb => ?_, fun _ => ⟨_, _, rfl, by decide⟩⟩
  refine (link_struct (.cons (code_usize.link trivial trivial)
    (.cons (h.link trivial trivial)
    (.one ((code_string plain).link ha hb))))).imp ?_
  obtain ⟨⟩ := a; obtain ⟨⟩ := b
  rintro ⟨rfl, rfl, rfl⟩; rfl

section
variable {F : Type} [FloatSem F] [FloatDebug F] [LawfulDebug F]

theorem code_object (plain : Char → Bool) : Code (Obj.Object.debug (F := F) plain) (fun o => ∀ b ∈ objectStrings o, Utf8 b) := by
  refine ⟨fun {a b} ha hb => ?_, fun _ => ⟨_, _, rfl, by decide⟩⟩
  have hname : ∀ o : Obj.Object F, (∀ b ∈ objectStrings o, Utf8 b) → Utf8 o.name := fun o h => h _ List.mem_cons_self
  have hgroup : ∀ o : Obj.Object F, (∀ b ∈ objectStrings o, Utf8 b) → ∀ g ∈ o.group_set, Utf8 g.name := fun o h g hg =>
    h _ (List.mem_cons_of_mem _ (List.mem_append_left _ (List.mem_map_of_mem hg)))
  have hgeo : ∀ o : Obj.Object F, (∀ b ∈ objectStrings o, Utf8 b) → ∀ g ∈ o.geometry_set, ∀ n ∈ g.material_name, Utf8 n :=
    fun o h g hg n hn =>
      h _ (List.mem_cons_of_mem _ (List.mem_append_right _ (List.mem_filterMap.mpr ⟨g, hg, hn⟩)))
  refine (link_struct (.cons ((code_string plain).link (hname a ha) (hname b hb))
    (.cons ((code_vec code_vertex).link (fun _ _ => trivial) (fun _ _ => trivial))
    (.cons ((code_vec code_texture).link (fun _ _ => trivial) (fun _ _ => trivial))
    (.cons ((code_vec code_normal).link (fun _ _ => trivial) (fun _ _ => trivial))
    (.cons ((code_vec (code_group plain)).link (hgroup a ha) (hgroup b hb))
    (.cons ((code_vec code_smoothing).link (fun _ _ => trivial) (fun _ _ => trivial))
    (.cons ((code_vec code_element).link (fun _ _ => trivial) (fun _ _ => trivial))
    (.cons ((code_vec code_shape).link (fun _ _ => trivial) (fun _ _ => trivial))
    (.one ((code_vec (code_geometry plain)).link (hgeo a ha) (hgeo b hb)))))))))))).imp ?_
  obtain ⟨⟩ := a; obtain ⟨⟩ := b
  rintro ⟨rfl, rfl, rfl, rfl, rfl, rfl, rfl, rfl, rfl⟩; rfl

theorem code_set (plain : Char → Bool) : Code (Obj.ObjectSet.debug (F := F) plain) (fun r => ∀ b ∈ setStrings r, Utf8 b) := by
  refine ⟨fun {a b} ha hb => ?_, fun _ => ⟨_, _, rfl, by decide⟩⟩
  have hlib : ∀ r : Obj.ObjectSet F, (∀ b ∈ setStrings r, Utf8 b) → ∀ b ∈ r.material_libraries, Utf8 b := fun r h b hb =>
    h b (List.mem_append_left _ hb)
  have hobj : ∀ r : Obj.ObjectSet F, (∀ b ∈ setStrings r, Utf8 b) → ∀ o ∈ r.objects, ∀ b ∈ objectStrings o, Utf8 b :=
    fun r h o ho b hb => h b (List.mem_append_right _ (List.mem_flatMap.mpr ⟨o, ho, hb⟩))
  refine (link_struct (.cons ((code_vec (code_string plain)).link (hlib a ha) (hlib b hb))
    (.one ((code_vec (code_object plain)).link (hobj a ha) (hobj b hb))))).imp ?_
  obtain ⟨⟩ := a; obtain ⟨⟩ := b
  rintro ⟨rfl, rfl⟩; rfl

theorem code_material (plain : Char → Bool) :
    Code (Mtl.Material.debug (F := F) plain) (fun m => ∀ b ∈ materialStrings m, Utf8 b) := by
  refine ⟨fun {a b} ha hb => ?_, fun _ => ⟨_, _, rfl, by decide⟩⟩
  have name := fun (m : Mtl.Material F) (h : ∀ b ∈ materialStrings m, Utf8 b) => h m.name List.mem_cons_self
  have maps : ∀ m : Mtl.Material F, (∀ b ∈ materialStrings m, Utf8 b) → ∀ s ∈ [m.map_ambient, m.map_diffuse, m.map_specular,
      m.map_emissive, m.map_specular_exponent, m.map_bump, m.map_displacement, m.map_dissolve, m.map_decal], ∀ b ∈ s, Utf8 b :=
    fun m h s hs b hb => h b (List.mem_cons_of_mem _ (List.mem_filterMap.mpr ⟨s, hs, hb⟩))
  have ma := maps a ha
  have mb := maps b hb
  have num : ∀ x y : F, Link (Debug.float x) (Debug.float y) (x = y) := fun x y => code_float.link trivial trivial
  have col : ∀ x y : Mtl.Color F, Link x.debug y.debug (x = y) := fun x y => code_color.link trivial trivial
  refine (link_struct (.cons ((code_string plain).link (name a ha) (name b hb))
    (.cons (col _ _) (.cons (col _ _) (.cons (col _ _) (.cons (col _ _)
    (.cons (num _ _) (.cons (num _ _)
    (.cons ((code_option code_float).link (fun _ _ => trivial) (fun _ _ => trivial))
    (.cons (code_model.link trivial trivial)
    (.cons ((code_option (code_string plain)).link (ma _ (by simp)) (mb _ (by simp)))
    (.cons ((code_option (code_string plain)).link (ma _ (by simp)) (mb _ (by simp)))
    (.cons ((code_option (code_string plain)).link (ma _ (by simp)) (mb _ (by simp)))
    (.cons ((code_option (code_string plain)).link (ma _ (by simp)) (mb _ (by simp)))
    (.cons ((code_option (code_string plain)).link (ma _ (by simp)) (mb _ (by simp)))
    (.cons ((code_option (code_string plain)).link (ma _ (by simp)) (mb _ (by simp)))
    (.cons ((code_option (code_string plain)).link (ma _ (by simp)) (mb _ (by simp)))
    (.cons ((code_option (code_string plain)).link (ma _ (by simp)) (mb _ (by simp)))
    (.one ((code_option (code_string plain)).link (ma _ (by simp)) (mb _ (by simp)))))))))))))))))))))).imp ?_
  obtain ⟨⟩ := a; obtain ⟨⟩ := b
  rintro ⟨rfl, rfl, rfl, rfl, rfl, rfl, rfl, rfl, rfl, rfl, rfl, rfl, rfl, rfl, rfl, rfl, rfl, rfl⟩; rfl

theorem code_materials (plain : Char → Bool) :
    Code (Mtl.MaterialSet.debug (F := F) plain) (fun r => ∀ b ∈ r.materials.flatMap materialStrings, Utf8 b) := by
  refine ⟨fun {a b} ha hb => ?_, fun _ => ⟨_, _, rfl, by decide⟩⟩
  have h : ∀ r : Mtl.MaterialSet F, (∀ b ∈ r.materials.flatMap materialStrings, Utf8 b) →
      ∀ m ∈ r.materials, ∀ b ∈ materialStrings m, Utf8 b := fun r h m hm b hb => h b (List.mem_flatMap.mpr ⟨m, hm, hb⟩)
  refine (link_struct (.one ((code_vec (code_material plain)).link (h a ha) (h b hb)))).imp ?_
  obtain ⟨⟩ := a; obtain ⟨⟩ := b
  rintro rfl; rfl

/-! ## The theorems -/

/-- **C102** Sets of objects with the same `Debug` text are the same, whatever characters are printed as they are. -/
theorem C102_objects (plain : Char → Bool) {r r' : Obj.ObjectSet F} (h : ∀ b ∈ setStrings r, Utf8 b)
    (h' : ∀ b ∈ setStrings r', Utf8 b) (e : r.debug plain = r'.debug plain) : r = r' :=
  (code_set plain).injective h h' e

/-- **C102** So are objects. -/
theorem C102_object (plain : Char → Bool) {o o' : Obj.Object F} (h : ∀ b ∈ objectStrings o, Utf8 b)
    (h' : ∀ b ∈ objectStrings o', Utf8 b) (e : o.debug plain = o'.debug plain) : o = o' :=
  (code_object plain).injective h h' e

/-- **C102** So are the corners of an element. -/
theorem C102_triple {t t' : Obj.VTNTriple F} (e : t.debug = t'.debug) : t = t' := code_triple.injective trivial trivial e

/-- **C102** So are sets of materials. -/
theorem C102_materials (plain : Char → Bool) {r r' : Mtl.MaterialSet F}
    (h : ∀ b ∈ r.materials.flatMap materialStrings, Utf8 b) (h' : ∀ b ∈ r'.materials.flatMap materialStrings, Utf8 b)
    (e : r.debug plain = r'.debug plain) : r = r' :=
  (code_materials plain).injective h h' e

/-- **C102** So are the vertices, texture vertices, normals and colors. -/
theorem C102_coordinates :
    (∀ a b : Obj.Vertex F, a.debug = b.debug → a = b) ∧ (∀ a b : Obj.TextureVertex F, a.debug = b.debug → a = b) ∧
      (∀ a b : Obj.NormalVertex F, a.debug = b.debug → a = b) ∧ ∀ a b : Mtl.Color F, a.debug = b.debug → a = b :=
  ⟨fun _ _ => code_vertex.injective trivial trivial, fun _ _ => code_texture.injective trivial trivial,
    fun _ _ => code_normal.injective trivial trivial, fun _ _ => code_color.injective trivial trivial⟩

end

/-- **C102** So are indices, elements, smoothing groups and shape entries. -/
theorem C102_parts :
    (∀ a b : Obj.VTNIndex, a.debug = b.debug → a = b) ∧ (∀ a b : Obj.Element, a.debug = b.debug → a = b) ∧
      (∀ a b : Obj.SmoothingGroup, a.debug = b.debug → a = b) ∧ ∀ a b : Obj.ShapeEntry, a.debug = b.debug → a = b :=
  ⟨fun _ _ => code_index.injective trivial trivial, fun _ _ => code_element.injective trivial trivial,
    fun _ _ => code_smoothing.injective trivial trivial, fun _ _ => code_shape.injective trivial trivial⟩

/-- **C102** Among the errors of both parsers, those with the same `Debug` text are the same. -/
theorem C102_errors (plain : Char → Bool) :
    (∀ a b : ParseError Obj.ErrorKind, Utf8 a.message → Utf8 b.message →
      a.debug plain Obj.ErrorKind.debug = b.debug plain Obj.ErrorKind.debug → a = b) ∧
    ∀ a b : ParseError Mtl.ErrorKind, Utf8 a.message → Utf8 b.message →
      a.debug plain Mtl.ErrorKind.debug = b.debug plain Mtl.ErrorKind.debug → a = b :=
  ⟨fun _ _ => (code_error plain code_kind).injective, fun _ _ => (code_error plain code_mtl_kind).injective⟩

theorem not_integer {t : Bytes} {c : UInt8} (hc : c ∈ t) (h : c = 46 ∨ c = 101 ∨ c = 102 ∨ c = 97) : parseIsize t = none := by
  cases e : parseIsize t with
  | none => rfl
  | some k =>
    have hd : c = 43 ∨ c = 45 ∨ 48 ≤ c ∧ c ≤ 57 := by
      obtain ⟨ds, n, hd, h, -⟩ := parseIsize_iff.mp e
      rcases h with ⟨h | h, -⟩ | ⟨h, -⟩ <;> rw [h] at hc
      · exact .inr (.inr (hd.2.1 c hc))
      · rcases List.mem_cons.mp hc with hc | hc
        · exact .inl hc
        · exact .inr (.inr (hd.2.1 c hc))
      · rcases List.mem_cons.mp hc with hc | hc
        · exact .inr (.inl hc)
        · exact .inr (.inr (hd.2.1 c hc))
    exfalso
    rcases h with rfl | rfl | rfl | rfl <;> (revert hd; decide)

/-- **C102** The `Debug` text of an `f64` is read as the number, and never taken for an integer. -/
theorem C102_number (x : F64) : Reads (FloatDebug.debug x) x ∧ parseIsize (FloatDebug.debug x) = none := by
  refine ⟨(C81_value (F64.debug_isFloat x) (F64.debug_moderate x) x).mp (F64.value_debug x), ?_⟩
  obtain ⟨c, hc, h⟩ := F64.debug_mark x
  exact not_integer hc h

example : FloatDebug.debug (F64.value b!"-0") = b!"-0.0" ∧ FloatDebug.debug (F64.value b!"-1e999") = b!"-inf" ∧
    FloatDebug.debug (F64.value b!"nan") = b!"NaN" := by decide +kernel

example : FloatDebug.debug (F64.value b!"1") = b!"1.0" := by decide +kernel

example : FloatDebug.debug (F64.value b!"-0.0000150") = b!"-1.5e-5" := by decide +kernel

example : FloatDebug.debug (F64.value b!"10000000000000000") = b!"1e16" := by decide +kernel

/-- What is printed as it is, for the examples: ASCII from the space to the tilde. -/
def printable (c : Char) : Bool := decide (32 ≤ c.toNat ∧ c.toNat < 127)

example : (Obj.Group.mk (encode ['a', '"', '\n', '\u00e9'])).debug printable = c!"Group(\"a\\\"\\n\\u{e9}\")" := by
  rw [Obj.Group.debug, Debug.string, chars_encode]
  decide +kernel

example : (Obj.Element.Face (.VTN 0 1 2) (.V 30) (.VN 4 5)).debug = c!"Face(VTN(0, 1, 2), V(30), VN(4, 5))" := by decide +kernel

example : (Obj.ShapeEntry.mk 7 [0, 1] 0).debug = c!"ShapeEntry { element: 7, groups: [0, 1], smoothing_group: 0 }" := by
  decide +kernel

example : (Obj.Vertex.mk (F64.value b!"0") (F64.value b!"-inf") F64.nan (F64.value b!"-0")).debug =
    c!"Vertex { x: 0.0, y: -inf, z: NaN, w: -0.0 }" := by decide +kernel

example : (Obj.Geometry.mk none []).debug printable = c!"Geometry { material_name: None, shapes: [] }" := by decide +kernel

end Verif.Props
