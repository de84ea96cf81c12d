import Verif.Props.Samples
import Verif.Proofs.Rerun
import Verif.Proofs.ObjLines
import Verif.Proofs.MtlLines

/-!
# Properties C07–C09, C25, C26, C38, C39, C43: behaviour on arbitrary input
-/

namespace Verif.Props

open Verif Verif.Spec

variable {F : Type} [FloatSem F] {cfg : Obj.Cfg} {input : Bytes}

/-! ## C07 -/

/-- **C07** `obj::parse` terminates: no loop of the model runs more often than there are
bytes in the input plus one, and allowing more iterations changes nothing. -/
theorem C07_terminates_obj (hlen : input.length < 2 ^ 63) (bound : Nat) (hb : input.length + 1 ≤ bound) :
    (Obj.parse_objset cfg bound (Obj.Parser.new input)).1 =
      (Obj.parse cfg input : Out Obj.ErrorKind (Obj.ObjectSet F)) ∧
    (Obj.parse cfg input : Out Obj.ErrorKind (Obj.ObjectSet F)) ≠ .outOfFuel := by
  have ht := length_tokens_le input
  refine ⟨?_, Obj.parse_not_outOfFuel hlen⟩
  have hs : Holds (Obj.Parser.new input).lexer (tokens input) := holds_new input
  rcases Obj.file_total cfg (tokens input) with ⟨file, hf⟩ | ⟨k, m, rest, hf⟩ | ⟨x, hf⟩
  · obtain ⟨line, -, e, -⟩ := Obj.run_objset (F := F) (Obj.file_ok hf (fuel := bound) (by omega) (by omega)) hs
    rw [e, Obj.parse_ok_of hlen hf]; rfl
  · obtain ⟨line, hl, e, -⟩ := Obj.run_objset (F := F) (Obj.file_err hf (fuel := bound) (by omega) (by omega)) hs
    have hl' : (Obj.Parser.new input).line_number = 1 := rfl
    rw [e, Obj.parse_err_of hlen hf]
    simp only [Res.at, Out.err.injEq, ParseError.mk.injEq, and_true]
    omega
  · obtain ⟨rest, hy⟩ := Obj.file_panic (F := F) hf (fuel := bound) (by omega) (by omega)
    obtain ⟨line, -, e, -⟩ := Obj.run_objset (F := F) hy hs
    rw [e, Obj.parse_panic_of hlen hf]; rfl

/-- **C07** The same for `mtl::parse`. -/
theorem C07_terminates_mtl (bound : Nat) (hb : input.length + 1 ≤ bound) :
    (Mtl.parse_mtlset bound (Mtl.Parser.new input)).1 =
      (Mtl.parse input : Out Mtl.ErrorKind (Mtl.MaterialSet F)) ∧
    (Mtl.parse input : Out Mtl.ErrorKind (Mtl.MaterialSet F)) ≠ .outOfFuel := by
  have ht := length_tokens_le input
  have hs : Holds (Mtl.Parser.new input).lexer (tokens input) := holds_new input
  constructor
  · rcases Mtl.file_total (tokens input) with ⟨file, hf⟩ | ⟨k, m, rest, hf⟩
    · obtain ⟨line, -, e, -⟩ := Mtl.run_mtlset (F := F) (Mtl.file_ok hf (fuel := bound) (by omega)) hs
      rw [e, Mtl.parse_ok_of hf]; rfl
    · obtain ⟨line, hl, e, -⟩ := Mtl.run_mtlset (F := F) (Mtl.file_err hf (fuel := bound) (by omega)) hs
      have hl' : (Mtl.Parser.new input).line_number = 1 := rfl
      rw [e, Mtl.parse_err_of hf]
      simp only [Res.at, Out.err.injEq, ParseError.mk.injEq, and_true]
      omega
  · rcases Mtl.parse_total (F := F) input with ⟨r, h⟩ | ⟨e, h⟩ <;> rw [h] <;> simp

example : sample.length + 1 ≤ 300 ∧ sample.length > 200 := by decide +kernel

/-! ## C08 -/

/-- **C08** `mtl::parse` always returns `Ok` or `Err`. -/
theorem C08_mtl_never_panics (input : Bytes) :
    (∃ r, (Mtl.parse input : Out Mtl.ErrorKind (Mtl.MaterialSet F)) = .ok r) ∨
    (∃ e, (Mtl.parse input : Out Mtl.ErrorKind (Mtl.MaterialSet F)) = .err e) :=
  Mtl.parse_total input

/-! ## C09 -/

/-- **C09** is false: a file with one vertex and nothing else makes `obj::parse` panic,
in every build. -/
theorem C09_refuted (cfg : Obj.Cfg) :
    (Obj.parse cfg b!"v 0 0 0\n" : Out Obj.ErrorKind (Obj.ObjectSet F)) = .panic .materialIndex := by
  refine Obj.parse_panic_of (by decide) ?_
  have e : tokens b!"v 0 0 0\n" = [b!"v", b!"0", b!"0", b!"0", nl] := by decide +kernel
  rw [e]
  refine ⟨[], _, .done (by decide) (by decide), .bare (.implicit (by decide))
    (.stmt (.v3 (by decide) (by decide) (by decide) ?_) (.blank (.done (.inl rfl)))) ?_⟩
  · intro t ht
    simp only [List.head?_cons, Option.mem_def, Option.some.injEq] at ht
    subst ht
    decide
  · intro it hit
    simp only [List.mem_singleton] at hit
    subst hit
    exact ⟨rfl, rfl⟩

/-- **C09** (second counterexample) With overflow checks an index near the end of the
range panics as well, even in a file that has elements; without them it is reported. -/
theorem C09_refuted_overflow :
    Obj.parse debug b!"v 0 0 0\np 1\np -9223372036854775808\n" =
      (.panic .indexSubOverflow : Out Obj.ErrorKind (Obj.ObjectSet Bytes)) ∧
    Obj.parse release b!"v 0 0 0\np 1\np -9223372036854775808\n" =
      (.err ⟨3, .VTNIndexOutOfRange, b!"Expected index in range [0, 1), but got -9223372036854775807."⟩ :
        Out Obj.ErrorKind (Obj.ObjectSet Bytes)) := by decide +kernel

theorem stmtPanic_checks {lo hi : Obj.Counts} {toks rest} (h : Obj.StmtPanic cfg lo hi toks rest) :
    cfg.overflow_checks = true := by
  have hr : ∀ {t}, Obj.RefPanic cfg lo hi t → cfg.overflow_checks = true := by
    intro t h
    cases h with
    | v _ h => exact h.choose_spec.2.1
    | vt _ _ h => exact h.choose_spec.2.1
    | vn _ _ _ h => exact h.choose_spec.2.1
  cases h with
  | p _ h => exact h.choose_spec.2.1
  | l _ h => exact hr h
  | f _ h => exact hr h

theorem bodyPanic_checks {lo hi : Obj.Counts} {toks rest} (h : Obj.BodyPanic cfg lo hi toks rest) :
    cfg.overflow_checks = true := by
  induction h with
  | here h => exact stmtPanic_checks h
  | blank _ ih => exact ih
  | later _ _ ih => exact ih

/-- **C09** (what holds instead) Of the eight places in `obj.rs` that can panic, only two
ever do: the lookup of a material name that was never pushed, and, in builds with overflow
checks, the subtraction in `calculate_index`. -/
theorem C09_panic_sites_partial (hlen : input.length < 2 ^ 63) {x : PanicSite}
    (h : (Obj.parse cfg input : Out Obj.ErrorKind (Obj.ObjectSet F)) = .panic x) :
    x = .materialIndex ∨ (x = .indexSubOverflow ∧ cfg.overflow_checks = true) := by
  obtain ⟨libs, rest, -, ho⟩ := (Obj.parse_panic_iff hlen).mp h
  clear h
  generalize ({} : Obj.Counts) = lo at ho
  induction ho with
  | body _ hb => exact .inr ⟨rfl, bodyPanic_checks hb⟩
  | bare => exact .inl rfl
  | later _ _ _ _ ih => exact ih

/-- **C09** (exact criterion) `obj::parse` panics exactly on the files described by
`Spec.Obj.FilePanic`: all statements before the place are fine, and there an object ends
without any element and `usemtl`, or an index overflows. -/
theorem C09_exact (hlen : input.length < 2 ^ 63) (x : PanicSite) :
    (Obj.parse cfg input : Out Obj.ErrorKind (Obj.ObjectSet F)) = .panic x ↔
      Obj.FilePanic cfg (tokens input) x :=
  Obj.parse_panic_iff hlen

/-! ## C25 -/

theorem nls_suffix {a b : List Tok} (h : a <:+ b) : nls a ≤ nls b := by
  obtain ⟨c, rfl⟩ := h
  rw [nls_append]
  omega

/-- **C25** The line of an error of `obj::parse` is a line of the input. -/
theorem C25_lines_obj (hlen : input.length < 2 ^ 63) {e : ParseError Obj.ErrorKind}
    (h : (Obj.parse cfg input : Out Obj.ErrorKind (Obj.ObjectSet F)) = .err e) :
    1 ≤ e.line_number ∧ e.line_number ≤ 1 + input.count 10 := by
  obtain ⟨rest, hf, hl⟩ := (Obj.parse_err_iff hlen).mp h
  have h1 := nls_suffix (Obj.fileErr_suffix hf)
  have h2 : nls (tokens input) = input.count 10 := nls_tokens input
  omega

/-- **C25** The line of an error of `mtl::parse` is a line of the input. -/
theorem C25_lines_mtl {e : ParseError Mtl.ErrorKind}
    (h : (Mtl.parse input : Out Mtl.ErrorKind (Mtl.MaterialSet F)) = .err e) :
    1 ≤ e.line_number ∧ e.line_number ≤ 1 + input.count 10 := by
  obtain ⟨rest, hf, hl⟩ := Mtl.parse_err_iff.mp h
  have h1 := nls_suffix (Mtl.fileErr_suffix hf)
  have h2 : nls (tokens input) = input.count 10 := nls_tokens input
  omega

example : Obj.parse debug b!"v 0 0 0\n\nv 0 x 0\n" =
    (.err ⟨3, .ExpectedFloat, b!"Expected a floating point number but got `x` instead."⟩ :
      Out Obj.ErrorKind (Obj.ObjectSet Bytes)) := by decide +kernel
example : Mtl.parse b!"newmtl a\nKa 1 1\n" =
    (.err ⟨3, .ExpectedFloat, b!"Expected floating point number but got \n"⟩ :
      Out Mtl.ErrorKind (Mtl.MaterialSet Bytes)) := by decide +kernel

/-! ## C26 -/

theorem numErr_kind {lo hi : Nat} {t k m} (h : Obj.NumErr cfg lo hi t k m) : k ≠ .InvalidObjectStatement := by
  cases h <;> simp

theorem refErr_kind {lo hi : Obj.Counts} {t k m} (h : Obj.RefErr cfg lo hi t k m) :
    k ≠ .InvalidObjectStatement := by
  cases h with
  | v _ h => exact numErr_kind h
  | vt _ _ h => exact numErr_kind h
  | vn _ _ _ h => exact numErr_kind h
  | shape => simp

theorem stmtErr_unknown {lo hi : Obj.Counts} {toks m rest}
    (h : Obj.StmtErr cfg lo hi toks .InvalidObjectStatement m rest) :
    ∃ t rest', rest = t :: rest' ∧ m = Obj.unknownText t := by
  generalize hk : Obj.ErrorKind.InvalidObjectStatement = k at h
  cases h with
  | p_bad _ h => exact absurd hk.symm (numErr_kind h)
  | l_bad _ _ h => exact absurd hk.symm (refErr_kind h)
  | @unknown t rest' _ => exact ⟨t, rest', rfl, rfl⟩
  | _ => cases hk

theorem bodyErr_unknown {lo hi : Obj.Counts} {toks k m rest} (h : Obj.BodyErr cfg lo hi toks k m rest)
    (hk : k = .InvalidObjectStatement) : ∃ t rest', rest = t :: rest' ∧ m = Obj.unknownText t := by
  induction h with
  | here h => subst hk; exact stmtErr_unknown h
  | blank _ ih => exact ih hk
  | later _ _ ih => exact ih hk

theorem objectsErr_unknown {lo : Obj.Counts} {toks k m rest} (h : Obj.ObjectsErr cfg lo toks k m rest)
    (hk : k = .InvalidObjectStatement) : ∃ t rest', rest = t :: rest' ∧ m = Obj.unknownText t := by
  induction h with
  | header h => cases h <;> cases hk
  | body _ hb => exact bodyErr_unknown hb hk
  | later _ _ _ _ ih => exact ih hk

theorem position_line {text : Bytes} {t : Tok} {rest : List Tok} (h : t :: rest <:+ tokens text) :
    ∃ a b, text = a ++ t ++ b ∧ tokens text = tokens a ++ t :: tokens b ∧
      1 + nls (tokens text) - nls (t :: rest) = 1 + a.count 10 := by
  obtain ⟨pre, e⟩ := h
  obtain ⟨a, b, h1, h2, h3⟩ := token_position byteAlphabet_disjoint e.symm
  refine ⟨a, b, h1, by rw [← e, ← h2, ← h3]; rfl, ?_⟩
  rw [← e, nls_append]
  have : nls pre = a.count 10 := by
    rw [← nls_tokens a]
    show _ = nls (tokensOf byteAlphabet a)
    rw [h2]
  omega

/-- **C26** An unsupported OBJ statement is reported with its first token and the line on
which that token stands. -/
theorem C26_position_obj (hlen : input.length < 2 ^ 63) {e : ParseError Obj.ErrorKind}
    (h : (Obj.parse cfg input : Out Obj.ErrorKind (Obj.ObjectSet F)) = .err e)
    (hk : e.kind = .InvalidObjectStatement) :
    ∃ a t b, input = a ++ t ++ b ∧ tokens input = tokens a ++ t :: tokens b ∧
      e.message = b!"Unsupported or invalid object statement `" ++ t ++ b!"`." ∧
      e.line_number = 1 + a.count 10 := by
  obtain ⟨rest, hf, hl⟩ := (Obj.parse_err_iff hlen).mp h
  rw [hk] at hf
  have hs := Obj.fileErr_suffix hf
  obtain ⟨libs, mid, -, ho⟩ := hf
  obtain ⟨t, rest', rfl, hm⟩ := objectsErr_unknown ho rfl
  obtain ⟨a, b, h1, h2, h3⟩ := position_line hs
  exact ⟨a, t, b, h1, h2, hm, by omega⟩

example : Obj.parse debug b!"v 0 0 0\nv 0 0 0\n\n  curv 1 2\n" =
    (.err ⟨4, .InvalidObjectStatement, b!"Unsupported or invalid object statement `curv`."⟩ :
      Out Obj.ErrorKind (Obj.ObjectSet Bytes)) := by decide +kernel

/-- **C26** Likewise an unsupported MTL statement, and text outside any material. -/
theorem C26_position_mtl {e : ParseError Mtl.ErrorKind}
    (h : (Mtl.parse input : Out Mtl.ErrorKind (Mtl.MaterialSet F)) = .err e)
    (hk : e.kind = .ErrorParsingMaterial ∨ e.kind = .ExpectedEndOfInput) :
    ∃ a t b, input = a ++ t ++ b ∧ tokens input = tokens a ++ t :: tokens b ∧
      e.message = (if e.kind = .ErrorParsingMaterial then b!"Could not parse the token `" ++ t ++ b!"`."
        else b!"Expected end of input but got `" ++ t ++ b!"`.") ∧
      e.line_number = 1 + a.count 10 := by
  obtain ⟨rest, hf, hl⟩ := Mtl.parse_err_iff.mp h
  have hs := Mtl.fileErr_suffix hf
  have hstmt : ∀ {toks k m rest}, Mtl.StmtErr toks k m rest →
      (k = .ErrorParsingMaterial ∨ k = .ExpectedEndOfInput) →
      ∃ t rest', rest = t :: rest' ∧ k = .ErrorParsingMaterial ∧ m = Mtl.unknownText t := by
    intro toks k m rest h hk
    cases h with
    | @unknown t rest' => exact ⟨t, rest', rfl, rfl, rfl⟩
    | _ => simp at hk
  have hmats : ∀ {toks k m rest}, Mtl.MatsErr toks k m rest →
      (k = .ErrorParsingMaterial ∨ k = .ExpectedEndOfInput) →
      ∃ t rest', rest = t :: rest' ∧ k = .ErrorParsingMaterial ∧ m = Mtl.unknownText t := by
    intro toks k m rest h hk
    induction h with
    | no_name => simp at hk
    | body hb =>
      induction hb with
      | here h => exact hstmt h hk
      | blank _ ih => exact ih hk
      | later _ _ ih => exact ih hk
    | later _ _ ih => exact ih hk
  have key : ∃ t rest', rest = t :: rest' ∧
      e.message = (if e.kind = .ErrorParsingMaterial then Mtl.unknownText t else Mtl.trailingText t) := by
    generalize e.kind = k at hf hk ⊢
    generalize e.message = m at hf ⊢
    clear hl hs
    generalize tokens input = toks at hf
    induction hf with
    | blank _ ih => exact ih hk
    | @trailing t toks => exact ⟨t, toks, rfl, rfl⟩
    | mats hm =>
      obtain ⟨t, rest', rfl, rfl, rfl⟩ := hmats hm hk
      exact ⟨t, rest', rfl, rfl⟩
  obtain ⟨t, rest', rfl, hm⟩ := key
  obtain ⟨a, b, h1, h2, h3⟩ := position_line hs
  exact ⟨a, t, b, h1, h2, hm, by omega⟩

example : Mtl.parse b!"newmtl a\n# c\nKa 1 1 1\n Tf 1 1 1\n" =
    (.err ⟨4, .ErrorParsingMaterial, b!"Could not parse the token `Tf`."⟩ :
      Out Mtl.ErrorKind (Mtl.MaterialSet Bytes)) := by decide +kernel
example : Mtl.parse b!"\n\nKa 1 1 1\n" =
    (.err ⟨3, .ExpectedEndOfInput, b!"Expected end of input but got `Ka`."⟩ :
      Out Mtl.ErrorKind (Mtl.MaterialSet Bytes)) := by decide +kernel

/-! ## C38 -/

/-- **C38** A newline at the end of an accepted OBJ file changes nothing. -/
theorem C38_final_newline_obj (hlen : input.length + 1 < 2 ^ 63) {r : Obj.ObjectSet F}
    (h : Obj.parse cfg input = .ok r) : Obj.parse cfg (input ++ b!"\n") = .ok r := by
  obtain ⟨file, hf, rfl⟩ := (Obj.parse_ok_iff (by omega)).mp h
  have h1 := Obj.file_append hf (X := []) (.inl rfl) .done
  rw [List.append_nil] at h1
  have e : tokens (input ++ b!"\n") = tokens input ++ [nl] := by
    rw [tokens_append_nl, tokens_nil]
  rw [← e] at h1
  exact Obj.parse_ok_of (by simpa using hlen) h1

/-- **C38** A newline at the end of an accepted MTL file changes nothing. -/
theorem C38_final_newline_mtl {r : Mtl.MaterialSet F}
    (h : Mtl.parse input = .ok r) : Mtl.parse (input ++ b!"\n") = .ok r := by
  obtain ⟨mats, hf, rfl⟩ := Mtl.parse_ok_iff.mp h
  have h1 := Mtl.file_append hf (b := []) (mats' := []) (.mats .done)
  rw [List.append_nil] at h1
  have e : tokens (input ++ b!"\n") = tokens input ++ [nl] := by
    rw [tokens_append_nl, tokens_nil]
  rw [← e] at h1
  exact Mtl.parse_ok_of h1

example : ∃ input : Bytes, input.getLast? ≠ some 10 ∧
    (∃ r : Obj.ObjectSet Bytes, r.objects.length = 1 ∧ Obj.parse debug input = .ok r) :=
  ⟨b!"v 0 0 0\nv 0 0 0\nl 1 2", by decide +kernel,
    ⟨[], [⟨[], [⟨b!"0", b!"0", b!"0", b!"1"⟩, ⟨b!"0", b!"0", b!"0", b!"1"⟩], [], [], [⟨b!"default"⟩], [⟨0⟩],
      [.Line (.V 0) (.V 1)], [⟨0, [0], 0⟩], [⟨none, [0]⟩]⟩]⟩, by decide +kernel⟩

/-! ## C39 -/

/-- Move the line of an error. -/
def shiftLine {K α : Type} (n : Nat) : Out K α → Out K α
  | .err e => .err { e with line_number := e.line_number + n }
  | o => o

theorem tokens_newlines (n : Nat) (input : Bytes) :
    tokens (List.replicate n 10 ++ input) = List.replicate n nl ++ tokens input := by
  induction n with
  | zero => rfl
  | succ n ih =>
    have := tokens_append_nl [] (List.replicate n 10 ++ input)
    rw [tokens_nil] at this
    simpa [List.replicate_succ, ih] using this

theorem libs_newlines {toks libs rest} (h : Obj.Libs toks libs rest) (n : Nat) :
    Obj.Libs (List.replicate n nl ++ toks) libs rest := by
  induction n with
  | zero => exact h
  | succ n ih => exact .blank ih

theorem nls_newlines (n : Nat) (toks : List Tok) : nls (List.replicate n nl ++ toks) = n + nls toks := by
  rw [nls_append]
  simp [nls]

/-- **C39** Newlines in front of an OBJ file shift the line of an error and change nothing else. -/
theorem C39_leading_newlines_obj (n : Nat) (hlen : n + input.length < 2 ^ 63) :
    (Obj.parse cfg (List.replicate n 10 ++ input) : Out Obj.ErrorKind (Obj.ObjectSet F)) =
      shiftLine n (Obj.parse cfg input) := by
  have hl1 : input.length < 2 ^ 63 := by omega
  have hl2 : (List.replicate n (10 : UInt8) ++ input).length < 2 ^ 63 := by simpa using hlen
  rcases Obj.file_total cfg (tokens input) with ⟨file, hf⟩ | ⟨k, m, rest, hf⟩ | ⟨x, hf⟩
  · rw [Obj.parse_ok_of hl1 hf]
    obtain ⟨rest, h1, h2⟩ := hf
    refine Obj.parse_ok_of hl2 ?_
    rw [tokens_newlines]
    exact ⟨rest, libs_newlines h1 n, h2⟩
  · rw [Obj.parse_err_of hl1 hf]
    have hs := nls_suffix (Obj.fileErr_suffix hf)
    obtain ⟨libs, mid, h1, h2⟩ := hf
    have hf' : Obj.FileErr cfg (tokens (List.replicate n 10 ++ input)) k m rest := by
      rw [tokens_newlines]
      exact ⟨libs, mid, libs_newlines h1 n, h2⟩
    rw [Obj.parse_err_of hl2 hf', tokens_newlines, nls_newlines]
    simp only [shiftLine, Out.err.injEq, ParseError.mk.injEq, and_true]
    omega
  · rw [Obj.parse_panic_of hl1 hf]
    obtain ⟨libs, rest, h1, h2⟩ := hf
    refine Obj.parse_panic_of hl2 ?_
    rw [tokens_newlines]
    exact ⟨libs, rest, libs_newlines h1 n, h2⟩

/-- **C39** Newlines in front of an MTL file shift the line of an error and change nothing else. -/
theorem C39_leading_newlines_mtl (n : Nat) (input : Bytes) :
    (Mtl.parse (List.replicate n 10 ++ input) : Out Mtl.ErrorKind (Mtl.MaterialSet F)) =
      shiftLine n (Mtl.parse input) := by
  rcases Mtl.file_total (tokens input) with ⟨file, hf⟩ | ⟨k, m, rest, hf⟩
  · rw [Mtl.parse_ok_of hf]
    refine Mtl.parse_ok_of ?_
    rw [tokens_newlines]
    induction n with
    | zero => exact hf
    | succ n ih => exact .blank ih
  · rw [Mtl.parse_err_of hf]
    have hs := nls_suffix (Mtl.fileErr_suffix hf)
    have hf' : Mtl.FileErr (tokens (List.replicate n 10 ++ input)) k m rest := by
      rw [tokens_newlines]
      clear hs
      induction n with
      | zero => exact hf
      | succ n ih => exact .blank ih
    rw [Mtl.parse_err_of hf', tokens_newlines, nls_newlines]
    simp only [shiftLine, Out.err.injEq, ParseError.mk.injEq, and_true]
    omega

example : Obj.parse debug b!"\n\n\nv 0 x 0\n" =
    shiftLine 3 (Obj.parse debug b!"v 0 x 0\n" : Out Obj.ErrorKind (Obj.ObjectSet Bytes)) ∧
    Obj.parse debug b!"v 0 x 0\n" =
      (.err ⟨1, .ExpectedFloat, b!"Expected a floating point number but got `x` instead."⟩ :
        Out Obj.ErrorKind (Obj.ObjectSet Bytes)) := by decide +kernel

/-! ## C43 -/

/-- The parser state after `n` further calls of `parse_objset`, each with its own bound. -/
def rerunObj (F : Type) [FloatSem F] (cfg : Obj.Cfg) : List Nat → PState PeekableLexer → PState PeekableLexer
  | [], s => s
  | bound :: bounds, s => rerunObj F cfg bounds (Obj.parse_objset (F := F) cfg bound s).2

/-- **C43** Once `parse_objset` has returned `Ok`, every further call on the same parser
returns `Ok` with nothing in it. -/
theorem C43_finished_obj (hlen : input.length < 2 ^ 63) {r : Obj.ObjectSet F}
    (h : (Obj.parse_objset cfg (input.length + 1) (Obj.Parser.new input)).1 = .ok r)
    (bounds : List Nat) (hb : ∀ b ∈ bounds, 1 ≤ b) (bound : Nat) (hb' : 1 ≤ bound) :
    (Obj.parse_objset cfg bound (rerunObj F cfg bounds
        (Obj.parse_objset (F := F) cfg (input.length + 1) (Obj.Parser.new input)).2)).1 =
      .ok ({ material_libraries := [], objects := [] } : Obj.ObjectSet F) := by
  have ht := length_tokens_le input
  have hempty : Obj.FileOk cfg [] ⟨[], []⟩ := ⟨[], .done (by simp) (by simp), .done⟩
  have step : ∀ (bound : Nat), 1 ≤ bound → ∀ s : PState PeekableLexer, Holds s.lexer [] →
      (Obj.parse_objset cfg bound s).1 = .ok ({ material_libraries := [], objects := [] } : Obj.ObjectSet F) ∧
      Holds (Obj.parse_objset (F := F) cfg bound s).2.lexer [] := by
    intro bound hb s hs
    obtain ⟨line, -, h1, -, h2⟩ := Obj.run_objset (F := F)
      (Obj.file_ok hempty (fuel := bound) (by simp; omega) (by simp)) hs
    exact ⟨h1, h2⟩
  obtain ⟨file, hf, -⟩ := (Obj.parse_ok_iff (F := F) hlen).mp h
  obtain ⟨line, -, -, -, h1⟩ := Obj.run_objset (F := F) (s := Obj.Parser.new input)
    (Obj.file_ok hf (fuel := input.length + 1) (by omega) (by omega)) (holds_new input)
  generalize (Obj.parse_objset (F := F) cfg (input.length + 1) (Obj.Parser.new input)).2 = s at h1
  clear h
  induction bounds generalizing s with
  | nil => exact (step bound hb' s h1).1
  | cons b bounds ih =>
    rw [rerunObj]
    exact ih (fun b' h' => hb b' (List.mem_cons_of_mem _ h')) _ (step b (hb b (by simp)) s h1).2

/-- The parser state after further calls of `parse_mtlset`. -/
def rerunMtl (F : Type) [FloatSem F] : List Nat → PState PeekableLexer → PState PeekableLexer
  | [], s => s
  | bound :: bounds, s => rerunMtl F bounds (Mtl.parse_mtlset (F := F) bound s).2

/-- **C43** The same for `parse_mtlset`. -/
theorem C43_finished_mtl {r : Mtl.MaterialSet F}
    (h : (Mtl.parse_mtlset (input.length + 1) (Mtl.Parser.new input)).1 = .ok r)
    (bounds : List Nat) (hb : ∀ b ∈ bounds, 1 ≤ b) (bound : Nat) (hb' : 1 ≤ bound) :
    (Mtl.parse_mtlset bound (rerunMtl F bounds
        (Mtl.parse_mtlset (F := F) (input.length + 1) (Mtl.Parser.new input)).2)).1 =
      .ok ({ materials := [] } : Mtl.MaterialSet F) := by
  have ht := length_tokens_le input
  have step : ∀ (bound : Nat), 1 ≤ bound → ∀ s : PState PeekableLexer, Holds s.lexer [] →
      (Mtl.parse_mtlset bound s).1 = .ok ({ materials := [] } : Mtl.MaterialSet F) ∧
      Holds (Mtl.parse_mtlset (F := F) bound s).2.lexer [] := by
    intro bound hb s hs
    obtain ⟨line, -, h1, -, h2⟩ := Mtl.run_mtlset (F := F)
      (Mtl.file_ok (mats := []) (.mats .done) (fuel := bound) (by simp; omega)) hs
    exact ⟨h1, h2⟩
  obtain ⟨file, hf, -⟩ := (Mtl.parse_ok_iff (F := F)).mp h
  obtain ⟨line, -, -, -, h1⟩ := Mtl.run_mtlset (F := F) (s := Mtl.Parser.new input)
    (Mtl.file_ok hf (fuel := input.length + 1) (by omega)) (holds_new input)
  generalize (Mtl.parse_mtlset (F := F) (input.length + 1) (Mtl.Parser.new input)).2 = s at h1
  clear h
  induction bounds generalizing s with
  | nil => exact (step bound hb' s h1).1
  | cons b bounds ih =>
    rw [rerunMtl]
    exact ih (fun b' h' => hb b' (List.mem_cons_of_mem _ h')) _ (step b (hb b (by simp)) s h1).2

example : (Obj.parse_objset debug (sample.length + 1) (Obj.Parser.new sample)).1 = .ok sampleResult :=
  sample_parses

end Verif.Props
