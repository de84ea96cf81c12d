import Verif.Proofs.WidthTop
import Verif.Props.Errors
import Verif.Props.Samples

/-!
# Property C94: the pointer width of the target

The theorems of the other files are about a 64-bit target. `Obj.Width.parse` and
`Mtl.Width.parse` are the two parsers on a target whose pointers have `w` bits: `isize` and
`usize` have `w` bits, every counter has machine arithmetic and every cast is a machine cast.
They are compared with `Obj.parse` and `Mtl.parse`.
-/

namespace Verif.Props

open Verif Verif.Spec Verif.Width

variable {F : Type} [FloatSem F] {cfg : Obj.Cfg} {input : Bytes} {w : Nat}

/-- Every index in the text is so small that adding the length of the text to it cannot
overflow. An index is a number between slashes, or a whole word. -/
def SmallIndices (w : Nat) (input : Bytes) : Prop :=
  ∀ t ∈ tokens input, ∀ b ∈ splitByte 47 t, ∀ k, parseIsize b = some k →
    |k| + ((input.length + 1 : Nat) : Int) < 2 ^ (w - 1)

/-- No index in the text is close to or below `isize::MIN`. -/
def NotTooNegative (w : Nat) (input : Bytes) : Prop :=
  ∀ t ∈ tokens input, ∀ b ∈ splitByte 47 t, ∀ k, parseIsize b = some k →
    -k + ((input.length + 1 : Nat) : Int) < 2 ^ (w - 1)

/-- Every word that is an unsigned number fits in `usize`. -/
def UnsignedFit (w : Nat) (input : Bytes) : Prop :=
  ∀ t ∈ tokens input, ∀ k, parseUsize t = some k → k < 2 ^ w

/-- The two runs on the tokens, and how they end. -/
theorem width_runs (S : Prop) (hw : w ≤ 64) (hlen : input.length + 1 < 2 ^ (w - 1))
    (hg : ∀ t ∈ tokens input, Obj.Width.Good S ⟨cfg, w⟩ (input.length + 1) t) :
    let q := (Obj.Width.parse ⟨cfg, w⟩ input : Out _ (Obj.ObjectSet F))
    let p := (Obj.parse cfg input : Out _ (Obj.ObjectSet F))
    (∀ r, q = .ok r ↔ p = .ok r) ∧ ((∃ e, q = .err e) ↔ ∃ e, p = .err e) ∧ (∀ x, q = .panic x ↔ p = .panic x) ∧
      (S → (Obj.Width.parse_objset (F := F) ⟨cfg, w⟩ (input.length + 1)) ⟨1, tokens input⟩ =
        (Obj.parse_objset cfg (input.length + 1)) ⟨1, tokens input⟩) ∧
      (S → q = p) := by
  have ht := length_tokens_le input
  have hl63 : input.length < 2 ^ 63 := by
    have : 2 ^ (w - 1) ≤ 2 ^ 63 := Nat.pow_le_pow_right (by decide) (by omega)
    omega
  obtain ⟨o, rest, hy⟩ := Obj.Checked.exists_run (F := F) cfg hl63
  obtain ⟨line, -, e2⟩ := hy.run 1
  have hnf : ((Obj.parse_objset (F := F) cfg (input.length + 1)) ⟨1, tokens input⟩).1 ≠ .outOfFuel := by
    rw [e2]
    cases o <;> simp [Res.at]
  obtain ⟨h1, h2, h3, h4, h5⟩ := (Obj.Width.rel_objset (F := F) (S := S) (tgt := ⟨cfg, w⟩) (N := input.length)
    ⟨hw, by omega, hlen⟩ (input.length + 1) ht).out hg 1
  have hq := run_text (input := input) (Obj.Width.sim_parse_objset (F := F) (d := 0) holds_bisim.symm ⟨cfg, w⟩
    (Nat.le_refl (input.length + 1))) (fun h => hnf (h4.mp h))
  have hp := run_text (input := input) (Obj.sim_parse_objset (F := F) (d := 0) holds_bisim.symm cfg
    (Nat.le_refl (input.length + 1))) hnf
  have hq' : (Obj.Width.parse ⟨cfg, w⟩ input : Out _ (Obj.ObjectSet F)) = _ := hq
  have hp' : (Obj.parse cfg input : Out _ (Obj.ObjectSet F)) = _ := hp
  intro q p
  rw [show q = _ from hq', show p = _ from hp']
  exact ⟨h1, h2, h3, h5, fun h => by rw [h5 h]⟩

/-- **C94** If all indices are small, `obj::parse` on a narrow target has the same outcome as on
a 64-bit target: the same result, or the same error, or the same panic. -/
theorem C94_obj (hw : w ≤ 64) (hlen : input.length + 1 < 2 ^ (w - 1)) (hi : SmallIndices w input)
    (hu : UnsignedFit w input) :
    (Obj.Width.parse ⟨cfg, w⟩ input : Out _ (Obj.ObjectSet F)) = Obj.parse cfg input := by
  refine (width_runs True hw hlen ?_).2.2.2.2 trivial
  intro t ht
  refine ⟨fun b hb k hk => .inr ?_, hu t ht⟩
  have := hi t ht b hb k hk
  refine ⟨fun _ => this, fun _ => ?_⟩
  have h1 := neg_le_abs k
  show ((input.length + 1 : Nat) : Int) - k < 2 ^ (w - 1)
  omega

/-- **C94** Large indices do not change what is accepted, nor the result: they are out of range
on every target. Only a build with overflow checks needs that no index is too negative. -/
theorem C94_accept (hw : w ≤ 64) (hlen : input.length + 1 < 2 ^ (w - 1)) (hu : UnsignedFit w input)
    (hn : cfg.overflow_checks = true → NotTooNegative w input) :
    let q := (Obj.Width.parse ⟨cfg, w⟩ input : Out _ (Obj.ObjectSet F))
    let p := (Obj.parse cfg input : Out _ (Obj.ObjectSet F))
    (∀ r, q = .ok r ↔ p = .ok r) ∧ ((∃ e, q = .err e) ↔ ∃ e, p = .err e) ∧ (∀ x, q = .panic x ↔ p = .panic x) := by
  obtain ⟨h1, h2, h3, -⟩ := width_runs (F := F) (cfg := cfg) (input := input) False hw hlen (by
    intro t ht
    refine ⟨fun b hb k hk => .inr ⟨False.elim, fun hc => ?_⟩, hu t ht⟩
    have := hn hc t ht b hb k hk
    show ((input.length + 1 : Nat) : Int) - k < 2 ^ (w - 1)
    omega)
  exact ⟨h1, h2, h3⟩

/-- **C94** With pointers of 64 bits this is the parser of the other theorems, on every text. -/
theorem C94_wide (hlen : input.length + 1 < 2 ^ 63) :
    (Obj.Width.parse ⟨cfg, 64⟩ input : Out _ (Obj.ObjectSet F)) = Obj.parse cfg input := by
  refine (width_runs True (Nat.le_refl _) hlen ?_).2.2.2.2 trivial
  intro t ht
  refine ⟨fun b hb k hk => .inl rfl, fun k hk => ?_⟩
  rw [parseUsize_eq, parseUsizeAt_some hk] at hk
  split at hk
  · rename_i h
    exact Nat.lt_of_le_of_lt h (by show usizeMaxAt 64 < 2 ^ 64; decide)
  · cases hk

/-- **C94** The same with machine arithmetic also in the lexer and for the line number: with
small indices no addition of `w`-bit numbers overflows and the outcome is that of a 64-bit
target. -/
theorem C94_machine (hw : w ≤ 64) (hlen : input.length + 1 < 2 ^ (w - 1)) (hi : SmallIndices w input)
    (hu : UnsignedFit w input) :
    let r := Obj.Width.parse_objset (F := F) ⟨cfg, w⟩ (input.length + 1)
      ⟨1, Machine.Stream.new (usizeMaxAt w) input⟩
    r.1 = Obj.parse cfg input ∧ r.2.lexer.overflow = false := by
  have ht := length_tokens_le input
  have h63 : 2 ^ (w - 1) ≤ 2 ^ 63 := Nat.pow_le_pow_right (by decide) (by omega)
  have h64 : 2 ^ (w - 1) ≤ 2 ^ w := Nat.pow_le_pow_right (by decide) (by omega)
  obtain ⟨o, rest, hy⟩ := Obj.Checked.exists_run (F := F) (input := input) cfg (by omega)
  have hp := Obj.parse_of_yields hy
  obtain ⟨line, e1, e2⟩ := hy.run 1
  have hs := (width_runs (F := F) (cfg := cfg) (input := input) True hw hlen (by
    intro t ht
    refine ⟨fun b hb k hk => .inr ?_, hu t ht⟩
    have := hi t ht b hb k hk
    refine ⟨fun _ => this, fun _ => ?_⟩
    have h1 := neg_le_abs k
    show ((input.length + 1 : Nat) : Int) - k < 2 ^ (w - 1)
    omega)).2.2.2.1 trivial
  rw [← hs] at e2
  obtain ⟨h1, h2, h3, h4⟩ := Machine.run_machine (limit := usizeMaxAt w) (by simp only [usizeMaxAt]; omega)
    (Obj.Width.sim_parse_objset (F := F) (d := 0) (Machine.tracks_bisim _) ⟨cfg, w⟩
      (Nat.le_refl (input.length + 1))) e1 e2
  refine ⟨?_, h4⟩
  rw [h1, hp]
  congr 1
  omega

/-- The two runs of `mtl::parse`. -/
theorem width_runs_mtl (S : Prop) (h2 : 2 ≤ w) (hw : w ≤ 64)
    (hg : ∀ t ∈ tokens input, Mtl.Width.Good S w t) :
    let q := (Mtl.Width.parse w input : Out _ (Mtl.MaterialSet F))
    let p := (Mtl.parse input : Out _ (Mtl.MaterialSet F))
    (∀ r, q = .ok r ↔ p = .ok r) ∧ ((∃ e, q = .err e) ↔ ∃ e, p = .err e) ∧ (S → q = p) := by
  obtain ⟨o, rest, hy⟩ := Mtl.exists_run (F := F) input
  obtain ⟨line, -, e2⟩ := hy.run 1
  have hnf : ((Mtl.parse_mtlset (F := F) (input.length + 1)) ⟨1, tokens input⟩).1 ≠ .outOfFuel := by
    rw [e2]
    cases o <;> simp [Res.at]
  obtain ⟨h1, h2, -, h4, h5⟩ := (Mtl.Width.rel_mtlset (F := F) (S := S) h2 hw (input.length + 1)
    (tokens input)).out hg 1
  have hq := run_text (input := input) (Mtl.Width.sim_parse_mtlset (F := F) (d := 0) holds_bisim.symm w
    (Nat.le_refl (input.length + 1))) (fun h => hnf (h4.mp h))
  have hp := run_text (input := input) (Mtl.sim_parse_mtlset (F := F) (d := 0) holds_bisim.symm
    (Nat.le_refl (input.length + 1))) hnf
  have hq' : (Mtl.Width.parse w input : Out _ (Mtl.MaterialSet F)) = _ := hq
  have hp' : (Mtl.parse input : Out _ (Mtl.MaterialSet F)) = _ := hp
  intro q p
  rw [show q = _ from hq', show p = _ from hp']
  exact ⟨h1, h2, fun h => by rw [h5 h]⟩

/-- **C94** `mtl::parse` accepts the same texts with the same results on every target. -/
theorem C94_mtl (h2 : 2 ≤ w) (hw : w ≤ 64) :
    let q := (Mtl.Width.parse w input : Out _ (Mtl.MaterialSet F))
    let p := (Mtl.parse input : Out _ (Mtl.MaterialSet F))
    (∀ r, q = .ok r ↔ p = .ok r) ∧ ((∃ e, q = .err e) ↔ ∃ e, p = .err e) :=
  have h := width_runs_mtl False h2 hw fun _ _ => False.elim
  ⟨h.1, h.2.1⟩

/-- **C94** If every unsigned number fits, the errors are the same too. -/
theorem C94_mtl_errors (h2 : 2 ≤ w) (hw : w ≤ 64) (hu : UnsignedFit w input) :
    (Mtl.Width.parse w input : Out _ (Mtl.MaterialSet F)) = Mtl.parse input :=
  (width_runs_mtl True h2 hw fun t ht _ => hu t ht).2.2 trivial

/-- Decidable forms of the conditions, for the examples. -/
def smallIndices (w : Nat) (input : Bytes) : Bool :=
  (tokens input).all fun t => (splitByte 47 t).all fun b =>
    (parseIsize b).all fun k => decide (|k| + ((input.length + 1 : Nat) : Int) < 2 ^ (w - 1))

theorem smallIndices_iff : smallIndices w input = true ↔ SmallIndices w input := by
  simp [smallIndices, SmallIndices, Option.all_eq_true]

def unsignedFit (w : Nat) (input : Bytes) : Bool :=
  (tokens input).all fun t => (parseUsize t).all fun k => decide (k < 2 ^ w)

theorem unsignedFit_iff : unsignedFit w input = true ↔ UnsignedFit w input := by
  simp [unsignedFit, UnsignedFit, Option.all_eq_true]

/-- The sample is parsed on 32 bits as on 64 bits. -/
example : Obj.Width.parse (F := Bytes) ⟨debug, 32⟩ sample = .ok sampleResult := by
  rw [C94_obj (by decide) (by decide +kernel) (smallIndices_iff.mp (by decide +kernel))
    (unsignedFit_iff.mp (by decide +kernel)), sample_parses]

/-- It is so even on 16 bits; on 8 bits the text is too long for the theorem. -/
example : Obj.Width.parse (F := Bytes) ⟨debug, 16⟩ sample = .ok sampleResult := by
  rw [C94_obj (by decide) (by decide +kernel) (smallIndices_iff.mp (by decide +kernel))
    (unsignedFit_iff.mp (by decide +kernel)), sample_parses]

/-- An index that fits in no `i32` ends a face on 32 bits as on 64 bits. -/
example (r) (h : Obj.parse (F := Bytes) release b!"v 0 0 0\nv 0 0 0\nv 0 0 0\nf 1 2 3 3000000000\n" = .ok r) :
    Obj.Width.parse (F := Bytes) ⟨release, 32⟩ b!"v 0 0 0\nv 0 0 0\nv 0 0 0\nf 1 2 3 3000000000\n" = .ok r :=
  ((C94_accept (by decide) (by decide +kernel) (unsignedFit_iff.mp (by decide +kernel))
    (fun h => by cases h)).1 r).mpr h

/-- A smoothing group above `u32::MAX` is accepted on 64 bits and rejected on 32 bits, so
`UnsignedFit` is needed in `C94_accept`. -/
example : kindOf (Obj.parse (F := Bytes) debug b!"s 4294967296\n") = none ∧
    kindOf (Obj.Width.parse (F := Bytes) ⟨debug, 32⟩ b!"s 4294967296\n") =
      some .SmoothingGroupNameMustBeOffOrInteger := by
  constructor <;> decide +kernel

/-- An index close to `i32::MIN` ends a face on 64 bits and panics on 32 bits in a build with
overflow checks, so `NotTooNegative` is needed. In a build without them it does no harm. -/
example : Obj.Width.parse (F := Bytes) ⟨debug, 32⟩ b!"v 0 0 0\nv 0 0 0\nv 0 0 0\nf 1 2 3 -2147483648\n" =
      .panic .indexSubOverflow ∧
    Obj.Width.parse (F := Bytes) ⟨release, 32⟩ b!"v 0 0 0\nv 0 0 0\nv 0 0 0\nf 1 2 3 -2147483648\n" =
      Obj.parse debug b!"v 0 0 0\nv 0 0 0\nv 0 0 0\nf 1 2 3 -2147483648\n" ∧
    kindOf (Obj.parse (F := Bytes) debug b!"v 0 0 0\nv 0 0 0\nv 0 0 0\nf 1 2 3 -2147483648\n") = none := by
  refine ⟨?_, ?_, ?_⟩ <;> decide +kernel

/-- A large index is an error on both targets, but not the same one, so `SmallIndices` is needed
in `C94_obj`. -/
example : kindOf (Obj.parse (F := Bytes) debug b!"v 0 0 0\np 3000000000\n") = some .VTNIndexOutOfRange ∧
    kindOf (Obj.Width.parse (F := Bytes) ⟨debug, 32⟩ b!"v 0 0 0\np 3000000000\n") = some .ExpectedInteger := by
  constructor <;> decide +kernel

/-- The two errors of `mtl::parse` for a number above `u32::MAX`. -/
example : kindOf (Mtl.parse (F := Bytes) b!"newmtl a\nillum 4294967296\n") = some .UnknownIlluminationModel ∧
    kindOf (Mtl.Width.parse (F := Bytes) 32 b!"newmtl a\nillum 4294967296\n") = some .ExpectedInteger := by
  constructor <;> decide +kernel

/-- With a single bit `illum 2` could not be read, so `2 ≤ w` is needed. -/
example : kindOf (Mtl.parse (F := Bytes) b!"newmtl a\nillum 2\n") = none ∧
    kindOf (Mtl.Width.parse (F := Bytes) 1 b!"newmtl a\nillum 2\n") = some .ExpectedInteger := by
  constructor <;> decide +kernel

end Verif.Props
