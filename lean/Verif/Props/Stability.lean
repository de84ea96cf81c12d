import Verif.Proofs.Profile
import Verif.Proofs.Stable
import Verif.Props.Methods
import Verif.Props.Robust

/-!
# Properties C57 and C58

How the result depends on the build profile and on what follows in the text.
-/

namespace Verif.Props

open Verif Verif.Spec

variable {F : Type} [FloatSem F] {cfg cfg' : Obj.Cfg} {a b input : Bytes}

/-! ## C57 -/

/-- **C57** `debug-assertions` makes no difference. -/
theorem C57_assertions (hlen : input.length < 2 ^ 63) (hc : cfg.overflow_checks = cfg'.overflow_checks) :
    (Obj.parse cfg input : Out Obj.ErrorKind (Obj.ObjectSet F)) = Obj.parse cfg' input := by
  rcases Obj.parse_profile (F := F) (c := cfg) (c' := cfg') hlen (by rw [hc]; exact id) with h | ⟨-, h⟩
  · exact h
  · exact absurd hc h

/-- **C57** Overflow checks make a difference only by the panic in `calculate_index`: any two
builds agree, unless the one with overflow checks panics there (and the other does not have
them). -/
theorem C57_overflow_checks (hlen : input.length < 2 ^ 63) (hc : cfg.overflow_checks = true) :
    (Obj.parse cfg input : Out Obj.ErrorKind (Obj.ObjectSet F)) = Obj.parse cfg' input ∨
      ((Obj.parse cfg input : Out Obj.ErrorKind (Obj.ObjectSet F)) = .panic .indexSubOverflow ∧
        cfg'.overflow_checks = false) := by
  rcases Obj.parse_profile (F := F) (c := cfg) (c' := cfg') hlen (fun _ => hc) with h | ⟨h, h'⟩
  · exact .inl h
  · refine .inr ⟨h, ?_⟩
    rw [hc] at h'
    simpa using h'.symm

/-- **C57** In particular what a checked build accepts or rejects, a release build accepts or
rejects in the same way. -/
theorem C57_same_result (hlen : input.length < 2 ^ 63) (hc : cfg.overflow_checks = true)
    (h : ∀ x, (Obj.parse cfg input : Out Obj.ErrorKind (Obj.ObjectSet F)) ≠ .panic x) :
    (Obj.parse cfg' input : Out Obj.ErrorKind (Obj.ObjectSet F)) = Obj.parse cfg input := by
  rcases C57_overflow_checks (F := F) (cfg := cfg) (cfg' := cfg') hlen hc with h' | ⟨h', -⟩
  · exact h'.symm
  · exact absurd h' (h _)

/-- **C57** What happens at that place, in any state of the parser: where the build with overflow
checks panics in `calculate_index`, one without them takes the index for one out of range. -/
theorem C57_same_index (hc' : cfg'.overflow_checks = false) (min max : Nat) (v : Int)
    (hmax : max < 2 ^ 63) (hv : isizeMin ≤ v ∧ v ≤ isizeMax) (s : PState PeekableLexer)
    (h : (Obj.calculate_index cfg (min, max) v s).1 = .panic .indexSubOverflow) :
    ∃ m, Obj.calculate_index cfg' (min, max) v s = (.err ⟨s.line_number, .VTNIndexOutOfRange, m⟩, s) := by
  have hno : ¬ ((min : Int) < v ∧ v ≤ max) := fun hin => by
    have := ((C74_index cfg min max v s hmax hv).1 (v - 1 - min).toNat).mpr ⟨hin.1, hin.2, by omega⟩
    rw [this] at h
    cases h
  have := (C74_index cfg' min max v s hmax hv).2 hno
  rwa [if_neg (by simp [hc'])] at this

example : (Obj.calculate_index debug (0, 1) (-9223372036854775807) (Obj.Parser.new [])).1 =
    .panic .indexSubOverflow := by decide +kernel

example : Obj.parse release sample = .ok sampleResult := by
  rw [C57_same_result (cfg := debug) sample_length rfl (by rw [sample_parses]; simp), sample_parses]

/-- The case in which they differ. -/
example : Obj.parse debug b!"v 0 0 0\np -9223372036854775807\n" =
      (.panic .indexSubOverflow : Out Obj.ErrorKind (Obj.ObjectSet Bytes)) ∧
    Obj.parse release b!"v 0 0 0\np -9223372036854775807\n" =
      (.err ⟨2, .VTNIndexOutOfRange,
        b!"Expected index in range [0, 1), but got -9223372036854775808."⟩ :
        Out Obj.ErrorKind (Obj.ObjectSet Bytes)) := by decide +kernel

/-! ## C58 -/

theorem tokens_two_lines (a b : Bytes) : tokens (a ++ 10 :: b) = tokens (a ++ [10]) ++ tokens b := by
  rw [tokens_append_nl, tokens_append_nl]
  simp [show tokens [] = [] from by decide]

theorem tokens_line_last (a : Bytes) : (tokens (a ++ [10])).getLast? = some nl := by
  rw [tokens_append_nl]
  simp [show tokens [] = [] from by decide]

/-- **C58** What `mtl::parse` finds wrong with complete lines is final: every text that begins
with them is rejected with the same error, on the same line. -/
theorem C58_final_mtl {e : ParseError Mtl.ErrorKind}
    (h : (Mtl.parse (a ++ [10]) : Out Mtl.ErrorKind (Mtl.MaterialSet F)) = .err e) (b : Bytes) :
    (Mtl.parse (a ++ 10 :: b) : Out Mtl.ErrorKind (Mtl.MaterialSet F)) = .err e := by
  obtain ⟨rest, hf, hl⟩ := Mtl.parse_err_iff.mp h
  refine Mtl.parse_err_iff.mpr ⟨rest ++ tokens b, ?_, ?_⟩
  · rw [tokens_two_lines]; exact Mtl.fileErr_extend hf (tokens_line_last a) _
  · rw [tokens_two_lines, nls_append, nls_append]
    have := nls_suffix (Mtl.fileErr_suffix hf)
    omega

/-- **C58** What `obj::parse` finds wrong with complete lines is final, except that an `o` at
the end of the last of them waits for an object name. -/
theorem C58_final_obj (hlen : (a ++ 10 :: b).length < 2 ^ 63) {e : ParseError Obj.ErrorKind}
    (h : (Obj.parse cfg (a ++ [10]) : Out Obj.ErrorKind (Obj.ObjectSet F)) = .err e) :
    (Obj.parse cfg (a ++ 10 :: b) : Out Obj.ErrorKind (Obj.ObjectSet F)) = .err e ∨
      (e.kind = .EndOfFile ∧ [b!"o", nl] <:+ tokens (a ++ [10])) := by
  have hlen' : (a ++ [10]).length < 2 ^ 63 := by simp at hlen ⊢; omega
  obtain ⟨rest, hf, hl⟩ := (Obj.parse_err_iff hlen').mp h
  rcases Obj.fileErr_extend hf (tokens_line_last a) with h' | h'
  · refine .inl ((Obj.parse_err_iff hlen).mpr ⟨rest ++ tokens b, ?_, ?_⟩)
    · rw [tokens_two_lines]; exact h' _
    · rw [tokens_two_lines, nls_append, nls_append]
      have := nls_suffix (Obj.fileErr_suffix hf)
      omega
  · exact .inr h'

/-- **C58** So is a panic in `calculate_index`. -/
theorem C58_final_panic (hlen : (a ++ 10 :: b).length < 2 ^ 63)
    (h : (Obj.parse cfg (a ++ [10]) : Out Obj.ErrorKind (Obj.ObjectSet F)) = .panic .indexSubOverflow) :
    (Obj.parse cfg (a ++ 10 :: b) : Out Obj.ErrorKind (Obj.ObjectSet F)) = .panic .indexSubOverflow := by
  have hlen' : (a ++ [10]).length < 2 ^ 63 := by simp at hlen ⊢; omega
  rw [Obj.parse_panic_iff hlen, tokens_two_lines]
  exact Obj.filePanic_extend ((Obj.parse_panic_iff hlen').mp h) _

/-- Whatever follows the third line. -/
example (hlen : (b!"v 0 0 0\n\nv 0 x 0" ++ 10 :: b).length < 2 ^ 63) :
    Obj.parse debug (b!"v 0 0 0\n\nv 0 x 0" ++ 10 :: b) =
    (.err ⟨3, .ExpectedFloat, b!"Expected a floating point number but got `x` instead."⟩ :
      Out Obj.ErrorKind (Obj.ObjectSet Bytes)) := by
  rcases C58_final_obj (F := Bytes) (cfg := debug) hlen (e := ⟨3, .ExpectedFloat, b!"Expected a floating point number but got `x` instead."⟩)
    (by decide +kernel) with h | ⟨h, -⟩
  · exact h
  · cases h

example (b : Bytes) : Mtl.parse (b!"newmtl a\nKa 1 2" ++ 10 :: b) =
    (.err ⟨3, .ExpectedFloat, b!"Expected floating point number but got \n"⟩ :
      Out Mtl.ErrorKind (Mtl.MaterialSet Bytes)) :=
  C58_final_mtl (by decide +kernel) b

/-- The exception. -/
example : Obj.parse debug b!"o\n" =
      (.err ⟨2, .EndOfFile, b!"Reached the end of the input in the process of getting the next token."⟩ :
        Out Obj.ErrorKind (Obj.ObjectSet Bytes)) ∧
    (Obj.parse debug b!"o\n\nusemtl a\n" : Out Obj.ErrorKind (Obj.ObjectSet Bytes)) =
      .ok ⟨[], [⟨b!"\n", [], [], [], [], [], [], [], [⟨some b!"a", []⟩]⟩]⟩ := by decide +kernel

end Verif.Props
