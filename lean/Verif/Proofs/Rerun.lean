import Verif.Proofs.ObjTop
import Verif.Proofs.MtlFile

/-!
# Runs of the parsers from any state
-/

namespace Verif

open Verif.Spec

/-- A run on a token list is a run on any lexer that still holds these tokens. -/
theorem run_holds {K α : Type} {p : P (List Tok) K α} {q : P PeekableLexer K α}
    (hsim : Sim 0 (fun a b => Holds b a) p q) {toks rest : List Tok} {o : Res K α} (h : Yields p toks o rest)
    {s : PState PeekableLexer} (hs : Holds s.lexer toks) :
    ∃ line, line + nls rest = s.line_number + nls toks ∧ (q s).1 = o.at line ∧
      (q s).2.line_number = line ∧ Holds (q s).2.lexer rest := by
  obtain ⟨line, e1, e2⟩ := h.run s.line_number
  obtain ⟨h1, h2⟩ := hsim.run ⟨s.line_number, toks⟩ s ⟨rfl, hs⟩
  rw [e2] at h1 h2
  refine ⟨line, e1, ?_, ?_⟩
  · generalize (q s).1 = x at h1
    cases o <;> cases x <;> simp_all [OutRel, Res.at]
  · rcases h2 with h2 | h2
    · cases o <;> simp [Res.at] at h2
    · exact ⟨h2.1.symm, h2.2⟩

namespace Obj

variable {F : Type} [FloatSem F]

theorem run_objset {cfg : Cfg} {fuel : Nat} {toks rest : List Tok} {o : Res ErrorKind (ObjectSet F)}
    (h : Yields (parse_objset cfg fuel) toks o rest) {s : PState PeekableLexer} (hs : Holds s.lexer toks) :
    ∃ line, line + nls rest = s.line_number + nls toks ∧
      (parse_objset cfg fuel s).1 = o.at line ∧
      (parse_objset (F := F) cfg fuel s).2.line_number = line ∧
      Holds (parse_objset (F := F) cfg fuel s).2.lexer rest :=
  run_holds (sim_parse_objset (F := F) (cfg := cfg) (d := 0) holds_bisim.symm (Nat.le_refl fuel)) h hs

end Obj

namespace Mtl

variable {F : Type} [FloatSem F]

theorem run_mtlset {fuel : Nat} {toks rest : List Tok} {o : Res ErrorKind (MaterialSet F)}
    (h : Yields (parse_mtlset fuel) toks o rest) {s : PState PeekableLexer} (hs : Holds s.lexer toks) :
    ∃ line, line + nls rest = s.line_number + nls toks ∧
      (parse_mtlset fuel s).1 = o.at line ∧
      (parse_mtlset (F := F) fuel s).2.line_number = line ∧
      Holds (parse_mtlset (F := F) fuel s).2.lexer rest :=
  run_holds (sim_parse_mtlset (F := F) (d := 0) holds_bisim.symm (Nat.le_refl fuel)) h hs

end Mtl

end Verif
