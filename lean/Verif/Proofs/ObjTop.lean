import Verif.Proofs.ObjFile
import Verif.Proofs.SimObj
import Verif.Proofs.Text

/-!
# `obj::parse` on byte strings
-/

namespace Verif.Obj

open Verif Verif.Spec Verif.Spec.Obj

variable {F : Type} [FloatSem F]

/-- A run on the token list is a run of the parser. -/
theorem parse_of_yields {cfg : Cfg} {input : Bytes} {o : Res ErrorKind (ObjectSet F)} {rest : List Tok}
    (h : Yields (parse_objset cfg (input.length + 1)) (tokens input) o rest) :
    (parse cfg input : Out ErrorKind (ObjectSet F)) = o.at (1 + nls (tokens input) - nls rest) := by
  obtain ⟨line, e1, e2⟩ := h.run 1
  have hs := (sim_parse_objset (F := F) (cfg := cfg) (d := 0) holds_bisim.symm
    (Nat.le_refl (input.length + 1))).run ⟨1, tokens input⟩
    ⟨1, PeekableLexer.new (Lexer.new input)⟩ ⟨rfl, holds_new input⟩
  have hl : line = 1 + nls (tokens input) - nls rest := by omega
  rw [e2] at hs
  have h1 := hs.1
  show (parse_objset cfg (input.length + 1) _).1 = _
  have e : (Parser.new input) = (⟨1, PeekableLexer.new (Lexer.new input)⟩ : PState PeekableLexer) := rfl
  rw [← hl]
  rw [e]
  generalize (parse_objset cfg (input.length + 1)
    (⟨1, PeekableLexer.new (Lexer.new input)⟩ : PState PeekableLexer) :
      Out ErrorKind (ObjectSet F) × _).1 = q at h1 ⊢
  cases o <;> cases q <;> simp_all [OutRel, Res.at]

section
variable {cfg : Cfg} {input : Bytes} (hlen : input.length < 2 ^ 63)
include hlen

theorem parse_ok_of {file : FileAst} (h : FileOk cfg (tokens input) file) :
    (parse cfg input : Out ErrorKind (ObjectSet F)) = .ok (meaning file) := by
  have := length_tokens_le input
  exact parse_of_yields (file_ok h (by omega) (by omega))

theorem parse_err_of {k m rest} (h : FileErr cfg (tokens input) k m rest) :
    (parse cfg input : Out ErrorKind (ObjectSet F)) =
      .err ⟨1 + nls (tokens input) - nls rest, k, m⟩ := by
  have := length_tokens_le input
  exact parse_of_yields (file_err h (by omega) (by omega))

theorem parse_panic_of {x} (h : FilePanic cfg (tokens input) x) :
    (parse cfg input : Out ErrorKind (ObjectSet F)) = .panic x := by
  have := length_tokens_le input
  obtain ⟨rest, h'⟩ := file_panic (F := F) h (fuel := input.length + 1) (by omega) (by omega)
  exact parse_of_yields h'

theorem parse_ok_iff {r : ObjectSet F} :
    parse cfg input = .ok r ↔ ∃ file, FileOk cfg (tokens input) file ∧ r = meaning file := by
  constructor
  · intro h
    rcases file_total cfg (tokens input) with ⟨file, hf⟩ | ⟨k, m, rest, hf⟩ | ⟨x, hf⟩
    · rw [parse_ok_of hlen hf] at h
      exact ⟨file, hf, by simpa using h.symm⟩
    · rw [parse_err_of hlen hf] at h; cases h
    · rw [parse_panic_of hlen hf] at h; cases h
  · rintro ⟨file, hf, rfl⟩
    exact parse_ok_of hlen hf

theorem parse_err_iff {e : ParseError ErrorKind} :
    (parse cfg input : Out ErrorKind (ObjectSet F)) = .err e ↔
      ∃ rest, FileErr cfg (tokens input) e.kind e.message rest ∧
        e.line_number = 1 + nls (tokens input) - nls rest := by
  constructor
  · intro h
    rcases file_total cfg (tokens input) with ⟨file, hf⟩ | ⟨k, m, rest, hf⟩ | ⟨x, hf⟩
    · rw [parse_ok_of hlen hf] at h; cases h
    · rw [parse_err_of hlen hf] at h
      simp only [Out.err.injEq] at h
      subst h
      exact ⟨rest, hf, rfl⟩
    · rw [parse_panic_of hlen hf] at h; cases h
  · rintro ⟨rest, hf, hl⟩
    rw [parse_err_of hlen hf, ← hl]

theorem parse_panic_iff {x : PanicSite} :
    (parse cfg input : Out ErrorKind (ObjectSet F)) = .panic x ↔ FilePanic cfg (tokens input) x := by
  constructor
  · intro h
    rcases file_total cfg (tokens input) with ⟨file, hf⟩ | ⟨k, m, rest, hf⟩ | ⟨y, hf⟩
    · rw [parse_ok_of hlen hf] at h; cases h
    · rw [parse_err_of hlen hf] at h; cases h
    · rw [parse_panic_of hlen hf] at h
      simp only [Out.panic.injEq] at h
      rwa [← h]
  · exact parse_panic_of hlen

theorem parse_not_outOfFuel : (parse cfg input : Out ErrorKind (ObjectSet F)) ≠ .outOfFuel := by
  intro h
  rcases file_total cfg (tokens input) with ⟨file, hf⟩ | ⟨k, m, rest, hf⟩ | ⟨y, hf⟩
  · rw [parse_ok_of hlen hf] at h; cases h
  · rw [parse_err_of hlen hf] at h; cases h
  · rw [parse_panic_of hlen hf] at h; cases h

end

end Verif.Obj
