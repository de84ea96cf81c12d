import Verif.Props.Robust
import Verif.Props.Methods
import Verif.Props.Lexing

/-!
# Property C87: calling a parser again

A parser that has returned, with whatever outcome, can be called again.  It then goes on where it
stopped, and behaves as a new parser on the text that is left.
-/

namespace Verif.Props

open Verif Verif.Spec

variable {F : Type} [FloatSem F] {cfg : Obj.Cfg} {input : Bytes}

/-- Cutting the token sequence anywhere is cutting the text. -/
theorem cut_text {used rest : List Tok} (h : tokens input = used ++ rest) :
    ∃ a b, input = a ++ b ∧ tokens b = rest ∧ a.count 10 = nls used := by
  rcases List.eq_nil_or_concat used with rfl | ⟨pre, t, rfl⟩
  · exact ⟨[], input, rfl, by simpa using h, rfl⟩
  · obtain ⟨a, b, e, -, e2⟩ := C01_token_position (pre := pre) (t := t) (post := rest) (by simpa using h)
    refine ⟨a ++ t, b, e, e2, ?_⟩
    have h1 := nls_tokens input
    have h2 := nls_tokens b
    rw [e2] at h2
    rw [h, List.count_append, h2] at h1
    rw [e, List.count_append] at h1
    show _ = List.count nl _
    omega

theorem before_rerunObj (bounds : List Nat) {s : PState PeekableLexer} {line : Nat} {toks : List Tok}
    (h : Before s line toks) : ∃ used rest, toks = used ++ rest ∧
      Before (rerunObj F cfg bounds s) (line + nls used) rest := by
  induction bounds generalizing s line toks with
  | nil => exact ⟨[], toks, rfl, h⟩
  | cons b bounds ih =>
    obtain ⟨u, r, rfl, h1, -⟩ := Obj.framed_objset (F := F) (cfg := cfg) b s line toks h
    obtain ⟨u', r', rfl, h2⟩ := ih h1
    refine ⟨u ++ u', r', by simp, ?_⟩
    rw [rerunObj, nls_append, ← Nat.add_assoc]
    exact h2

theorem before_rerunMtl (bounds : List Nat) {s : PState PeekableLexer} {line : Nat} {toks : List Tok}
    (h : Before s line toks) : ∃ used rest, toks = used ++ rest ∧
      Before (rerunMtl F bounds s) (line + nls used) rest := by
  induction bounds generalizing s line toks with
  | nil => exact ⟨[], toks, rfl, h⟩
  | cons b bounds ih =>
    obtain ⟨u, r, rfl, h1, -⟩ := Mtl.framed_mtlset (F := F) b s line toks h
    obtain ⟨u', r', rfl, h2⟩ := ih h1
    refine ⟨u ++ u', r', by simp, ?_⟩
    rw [rerunMtl, nls_append, ← Nat.add_assoc]
    exact h2

/-- **C87.** Whatever calls of `parse_objset` a parser has behind it, and however they ended, there
is a point of the text such that the line counter stands at the line of this point and the next
call returns what a new parser returns on the text behind it, with the lines of errors counted from
the start of the whole text. -/
theorem C87_resume_obj (hlen : input.length < 2 ^ 63) (bounds : List Nat) :
    ∃ a b, input = a ++ b ∧
      (rerunObj F cfg bounds (Obj.Parser.new input)).line_number = 1 + a.count 10 ∧
      ∀ bound, input.length < bound →
        (Obj.parse_objset cfg bound (rerunObj F cfg bounds (Obj.Parser.new input))).1 =
          (shiftLine (a.count 10) (Obj.parse cfg b) : Out Obj.ErrorKind (Obj.ObjectSet F)) := by
  obtain ⟨used, rest, e, hs⟩ := before_rerunObj (F := F) (cfg := cfg) bounds (before_new input)
  obtain ⟨a, b, rfl, rfl, ha⟩ := cut_text e
  refine ⟨a, b, rfl, by rw [hs.line, ha], fun bound hb => ?_⟩
  have hb1 : b.length < 2 ^ 63 := by rw [List.length_append] at hlen; omega
  have hb2 : b.length < bound := by rw [List.length_append] at hb; omega
  have hb3 := length_tokens_le b
  have hl := hs.line
  rcases Obj.file_total cfg (tokens b) with ⟨file, hf⟩ | ⟨k, m, rest, hf⟩ | ⟨x, hf⟩
  · rw [Obj.parse_ok_of hb1 hf]
    obtain ⟨line, -, h, -⟩ := Obj.run_objset (F := F) (Obj.file_ok hf (fuel := bound) (by omega) (by omega)) hs.toks
    exact h
  · rw [Obj.parse_err_of hb1 hf]
    obtain ⟨line, h1, h2, -⟩ := Obj.run_objset (F := F) (Obj.file_err hf (fuel := bound) (by omega) (by omega)) hs.toks
    rw [h2]
    have := nls_suffix (Obj.fileErr_suffix hf)
    simp only [Res.at, shiftLine, Out.err.injEq, ParseError.mk.injEq, and_true]
    omega
  · rw [Obj.parse_panic_of hb1 hf]
    obtain ⟨rest, hy⟩ := Obj.file_panic (F := F) hf (fuel := bound) (by omega) (by omega)
    obtain ⟨line, -, h, -⟩ := Obj.run_objset hy hs.toks
    exact h

/-- **C87.** The same for `parse_mtlset`. -/
theorem C87_resume_mtl (input : Bytes) (bounds : List Nat) :
    ∃ a b, input = a ++ b ∧
      (rerunMtl F bounds (Mtl.Parser.new input)).line_number = 1 + a.count 10 ∧
      ∀ bound, input.length < bound →
        (Mtl.parse_mtlset bound (rerunMtl F bounds (Mtl.Parser.new input))).1 =
          (shiftLine (a.count 10) (Mtl.parse b) : Out Mtl.ErrorKind (Mtl.MaterialSet F)) := by
  obtain ⟨used, rest, e, hs⟩ := before_rerunMtl (F := F) bounds (before_new input)
  obtain ⟨a, b, rfl, rfl, ha⟩ := cut_text e
  refine ⟨a, b, rfl, hs.line.trans (by rw [ha]), fun bound hb => ?_⟩
  have hb2 : b.length < bound := by rw [List.length_append] at hb; omega
  have hb3 := length_tokens_le b
  have hl := hs.line
  have hs : Before (rerunMtl F bounds (Mtl.Parser.new (a ++ b))) (1 + nls used) (tokens b) := hs
  rcases Mtl.file_total (tokens b) with ⟨file, hf⟩ | ⟨k, m, rest, hf⟩
  · rw [Mtl.parse_ok_of hf]
    obtain ⟨line, -, h, -⟩ := Mtl.run_mtlset (F := F) (Mtl.file_ok hf (fuel := bound) (by omega)) hs.toks
    exact h
  · rw [Mtl.parse_err_of hf]
    obtain ⟨line, h1, h2, -⟩ := Mtl.run_mtlset (F := F) (Mtl.file_err hf (fuel := bound) (by omega)) hs.toks
    rw [hs.line] at h1
    rw [h2]
    have := nls_suffix (Mtl.fileErr_suffix hf)
    simp only [Res.at, shiftLine, Out.err.injEq, ParseError.mk.injEq, and_true]
    omega

/-! ## Errors at which a parser stays -/

theorem stmtErr_unread {lo hi : Obj.Counts} {toks k m rest} (h : Obj.StmtErr cfg lo hi toks k m rest)
    (hk : k = .InvalidObjectStatement) :
    ∃ t tl, t ∉ Obj.keywords ∧ rest = t :: tl ∧ m = Obj.unknownText t := by
  cases h with
  | p_bad _ h => exact absurd hk (numErr_kind h)
  | l_bad _ _ h => exact absurd hk (refErr_kind h)
  | unknown h => exact ⟨_, _, h, rfl, rfl⟩
  | _ => cases hk

theorem bodyErr_unread {lo hi : Obj.Counts} {toks k m rest} (h : Obj.BodyErr cfg lo hi toks k m rest)
    (hk : k = .InvalidObjectStatement) :
    ∃ t tl, t ∉ Obj.keywords ∧ rest = t :: tl ∧ m = Obj.unknownText t := by
  induction h with
  | here h => exact stmtErr_unread h hk
  | blank _ ih => exact ih hk
  | later _ _ ih => exact ih hk

theorem objectsErr_unread {lo : Obj.Counts} {toks k m rest} (h : Obj.ObjectsErr cfg lo toks k m rest)
    (hk : k = .InvalidObjectStatement) :
    ∃ t tl, t ∉ Obj.keywords ∧ rest = t :: tl ∧ m = Obj.unknownText t := by
  induction h with
  | header h => cases h <;> cases hk
  | body _ h => exact bodyErr_unread h hk
  | later _ _ _ _ ih => exact ih hk

theorem unknown_again {t : Tok} {tl : List Tok} (h : t ∉ Obj.keywords) (hm : t ≠ b!"mtllib") :
    Obj.FileErr cfg (t :: tl) .InvalidObjectStatement (Obj.unknownText t) (t :: tl) := by
  have h1 : t ≠ nl := fun e => h (by rw [e]; simp [Obj.keywords])
  have h2 : t ≠ b!"o" := fun e => h (by rw [e]; simp [Obj.keywords])
  exact ⟨[], t :: tl, .done (by simpa using h1) (by simpa using hm), .body (.implicit h2) (.here (.unknown h))⟩

theorem stays_obj {t : Tok} {tl : List Tok} (h : t ∉ Obj.keywords) (hm : t ≠ b!"mtllib")
    {n bound : Nat} (hn : (t :: tl).length ≤ n) (hn' : n < 2 ^ 63) (hb : n < bound) {s : PState PeekableLexer} {line : Nat}
    (hs : Before s line (t :: tl)) :
    (Obj.parse_objset cfg bound s).1 =
      (.err ⟨line, .InvalidObjectStatement, Obj.unknownText t⟩ : Out Obj.ErrorKind (Obj.ObjectSet F)) ∧
    Before (Obj.parse_objset (F := F) cfg bound s).2 line (t :: tl) := by
  obtain ⟨l, h1, h2, h3, h4⟩ := Obj.run_objset (F := F)
    (Obj.file_err (unknown_again (cfg := cfg) (tl := tl) h hm) (fuel := bound) (by omega) (by omega)) hs.toks
  have : l = line := by have := hs.line; omega
  subst this
  exact ⟨h2, h3, h4⟩

/-- **C87.** A word that begins no statement is not taken: once `parse_objset` has complained about
it, every further call makes the same complaint about the same line.  The exception is `mtllib`,
which a further call takes for the head of a file. -/
theorem C87_stuck_obj (hlen : input.length < 2 ^ 63) {bound : Nat} (hb : input.length < bound)
    {e : ParseError Obj.ErrorKind}
    (h : (Obj.parse_objset (F := F) cfg bound (Obj.Parser.new input)).1 = .err e)
    (hk : e.kind = .InvalidObjectStatement) (hm : e.message ≠ Obj.unknownText b!"mtllib")
    (bounds : List Nat) (hbs : ∀ b ∈ bounds, input.length < b) :
    (Obj.parse_objset cfg bound (rerunObj F cfg bounds
        (Obj.parse_objset (F := F) cfg bound (Obj.Parser.new input)).2)).1 =
      (.err e : Out Obj.ErrorKind (Obj.ObjectSet F)) := by
  have ht := length_tokens_le input
  rcases Obj.file_total cfg (tokens input) with ⟨file, hf⟩ | ⟨k, m, rest, hf⟩ | ⟨x, hf⟩
  · obtain ⟨line, -, h', -⟩ := Obj.run_objset (F := F) (s := Obj.Parser.new input)
      (Obj.file_ok hf (fuel := bound) (by omega) (by omega)) (holds_new input)
    rw [h'] at h; cases h
  · obtain ⟨line, -, h1, h2, h3⟩ := Obj.run_objset (F := F) (s := Obj.Parser.new input)
      (Obj.file_err hf (fuel := bound) (by omega) (by omega)) (holds_new input)
    rw [h1] at h
    cases h
    cases hk
    have hsuf := (Obj.fileErr_suffix hf).length_le
    obtain ⟨libs, mid, -, ho⟩ := hf
    obtain ⟨t, tl, ht1, rfl, rfl⟩ := objectsErr_unread ho rfl
    have hne : t ≠ b!"mtllib" := fun e => hm (by rw [e])
    have hs : Before (Obj.parse_objset (F := F) cfg bound (Obj.Parser.new input)).2 line (t :: tl) := ⟨h2, h3⟩
    generalize (Obj.parse_objset (F := F) cfg bound (Obj.Parser.new input)).2 = s at hs
    clear h1 h2 h3
    induction bounds generalizing s with
    | nil => exact (stays_obj ht1 hne (by omega) hlen hb hs).1
    | cons b bounds ih =>
      exact ih (fun b' hb' => hbs b' (List.mem_cons_of_mem _ hb')) _
        (stays_obj ht1 hne (by omega) hlen (hbs b (by simp)) hs).2
  · obtain ⟨rest, hy⟩ := Obj.file_panic (F := F) hf (fuel := bound) (by omega) (by omega)
    obtain ⟨line, -, h', -⟩ := Obj.run_objset (s := Obj.Parser.new input) hy (holds_new input)
    rw [h'] at h; cases h

theorem fileErr_unread {toks k m rest} (h : Mtl.FileErr toks k m rest)
    (hk : k = .ErrorParsingMaterial ∨ k = .ExpectedEndOfInput) :
    ∃ t tl, t ≠ nl ∧ t ≠ b!"newmtl" ∧ rest = t :: tl ∧
      (k = .ErrorParsingMaterial ∧ m = Mtl.unknownText t ∨ k = .ExpectedEndOfInput ∧ m = Mtl.trailingText t) := by
  induction h with
  | blank _ ih => exact ih hk
  | trailing h1 h2 => exact ⟨_, _, h1, h2, rfl, .inr ⟨rfl, rfl⟩⟩
  | mats h =>
    induction h with
    | no_name => rcases hk with hk | hk <;> cases hk
    | later _ _ ih => exact ih hk
    | body h =>
      induction h with
      | blank _ ih => exact ih hk
      | later _ _ ih => exact ih hk
      | here h =>
        cases h with
        | unknown h1 h2 h3 => exact ⟨_, _, h2, h3, rfl, .inl ⟨rfl, rfl⟩⟩
        | _ => rcases hk with hk | hk <;> cases hk

theorem stays_mtl {t : Tok} {tl : List Tok} (h1 : t ≠ nl) (h2 : t ≠ b!"newmtl")
    {n bound : Nat} (hn : (t :: tl).length ≤ n) (hb : n < bound) {s : PState PeekableLexer} {line : Nat}
    (hs : Before s line (t :: tl)) :
    (Mtl.parse_mtlset bound s).1 =
      (.err ⟨line, .ExpectedEndOfInput, Mtl.trailingText t⟩ : Out Mtl.ErrorKind (Mtl.MaterialSet F)) ∧
    Before (Mtl.parse_mtlset (F := F) bound s).2 line (t :: tl) := by
  obtain ⟨l, e1, e2, e3, e4⟩ := Mtl.run_mtlset (F := F)
    (Mtl.file_err (.trailing h1 h2) (fuel := bound) (by omega)) hs.toks
  have : l = line := by have := hs.line; omega
  subst this
  exact ⟨e2, e3, e4⟩

/-- **C87.** The same for `parse_mtlset`, where the first complaint is about a word that begins no
statement or no material, and every further one about a word where the file should end. -/
theorem C87_stuck_mtl {bound : Nat} (hb : input.length < bound) {e : ParseError Mtl.ErrorKind}
    (h : (Mtl.parse_mtlset (F := F) bound (Mtl.Parser.new input)).1 = .err e)
    (hk : e.kind = .ErrorParsingMaterial ∨ e.kind = .ExpectedEndOfInput) :
    ∃ t, (e.kind = .ErrorParsingMaterial ∧ e.message = Mtl.unknownText t ∨
        e.kind = .ExpectedEndOfInput ∧ e.message = Mtl.trailingText t) ∧
      ∀ bounds : List Nat, (∀ b ∈ bounds, input.length < b) →
        (Mtl.parse_mtlset bound (rerunMtl F bounds
            (Mtl.parse_mtlset (F := F) bound (Mtl.Parser.new input)).2)).1 =
          (.err ⟨e.line_number, .ExpectedEndOfInput, Mtl.trailingText t⟩ :
            Out Mtl.ErrorKind (Mtl.MaterialSet F)) := by
  have ht := length_tokens_le input
  rcases Mtl.file_total (tokens input) with ⟨file, hf⟩ | ⟨k, m, rest, hf⟩
  · obtain ⟨line, -, h', -⟩ := Mtl.run_mtlset (F := F) (s := Mtl.Parser.new input)
      (Mtl.file_ok hf (fuel := bound) (by omega)) (holds_new input)
    rw [h'] at h; cases h
  · obtain ⟨line, -, h1, h2, h3⟩ := Mtl.run_mtlset (F := F) (s := Mtl.Parser.new input)
      (Mtl.file_err hf (fuel := bound) (by omega)) (holds_new input)
    rw [h1] at h
    cases h
    have hsuf := (Mtl.fileErr_suffix hf).length_le
    obtain ⟨t, tl, ht1, ht2, rfl, hm⟩ := fileErr_unread hf hk
    refine ⟨t, hm, fun bounds hbs => ?_⟩
    have hs : Before (Mtl.parse_mtlset (F := F) bound (Mtl.Parser.new input)).2 line (t :: tl) := ⟨h2, h3⟩
    generalize (Mtl.parse_mtlset (F := F) bound (Mtl.Parser.new input)).2 = s at hs
    clear h1 h2 h3
    induction bounds generalizing s with
    | nil => exact (stays_mtl ht1 ht2 (by omega) hb hs).1
    | cons b bounds ih =>
      exact ih (fun b' hb' => hbs b' (List.mem_cons_of_mem _ hb')) _
        (stays_mtl ht1 ht2 (by omega) (hbs b (by simp)) hs).2

/-! ## Examples -/

/-- A text with two faults. -/
def twoFaults : Bytes := b!"o a\nv 1 x\nv 1 2 3\nv 4 5 y\nv 6 7 8\np 1\n"

/-- The first call complains about `x`; the second goes on behind it, at the end of line 2, reads the
vertex of line 3 into a new object and complains about `y`; the third reads the rest, where the
vertex of line 5 is the first. -/
example :
    (Obj.parse_objset debug 99 (Obj.Parser.new twoFaults)).1 =
      (.err ⟨2, .ExpectedFloat, b!"Expected a floating point number but got `x` instead."⟩ :
        Out Obj.ErrorKind (Obj.ObjectSet Bytes)) ∧
    (Obj.parse_objset debug 99 (rerunObj Bytes debug [99] (Obj.Parser.new twoFaults))).1 =
      (.err ⟨4, .ExpectedFloat, b!"Expected a floating point number but got `y` instead."⟩ :
        Out Obj.ErrorKind (Obj.ObjectSet Bytes)) ∧
    (Obj.parse_objset debug 99 (rerunObj Bytes debug [99, 99] (Obj.Parser.new twoFaults))).1 =
      Obj.parse (F := Bytes) debug b!"\nv 6 7 8\np 1\n" ∧
    (Obj.parse (F := Bytes) debug b!"\nv 6 7 8\np 1\n" matches .ok ⟨[], [_]⟩) = true := by
  decide +kernel

/-- A word that begins no statement, and `mtllib` behind the first statement. -/
example :
    (Obj.parse_objset debug 99 (rerunObj Bytes debug [99, 99] (Obj.Parser.new b!"\nv 1 2 3\nbad\nv 4 5 6\n"))).1 =
      (.err ⟨3, .InvalidObjectStatement, Obj.unknownText b!"bad"⟩ : Out Obj.ErrorKind (Obj.ObjectSet Bytes)) ∧
    (Obj.parse_objset debug 99 (Obj.Parser.new b!"\nv 1 2 3\nmtllib a\nv 4 5 6\np 1")).1 =
      (.err ⟨3, .InvalidObjectStatement, Obj.unknownText b!"mtllib"⟩ : Out Obj.ErrorKind (Obj.ObjectSet Bytes)) ∧
    ((Obj.parse_objset (F := Bytes) debug 99
      (rerunObj Bytes debug [99] (Obj.Parser.new b!"\nv 1 2 3\nmtllib a\nv 4 5 6\np 1"))).1
        matches .ok ⟨[_], [_]⟩) = true := by
  decide +kernel

example :
    (Mtl.parse_mtlset 99 (Mtl.Parser.new b!"newmtl a\nKd 1 0 0\nbad\nnewmtl b\n")).1 =
      (.err ⟨3, .ErrorParsingMaterial, Mtl.unknownText b!"bad"⟩ : Out Mtl.ErrorKind (Mtl.MaterialSet Bytes)) ∧
    (Mtl.parse_mtlset 99 (rerunMtl Bytes [99] (Mtl.Parser.new b!"newmtl a\nKd 1 0 0\nbad\nnewmtl b\n"))).1 =
      (.err ⟨3, .ExpectedEndOfInput, Mtl.trailingText b!"bad"⟩ : Out Mtl.ErrorKind (Mtl.MaterialSet Bytes)) ∧
    (Mtl.parse_mtlset 99 (rerunMtl Bytes [99] (Mtl.Parser.new b!"newmtl a\nNs x\nnewmtl b\n"))).1 =
      Mtl.parse (F := Bytes) b!"newmtl b\n" := by
  decide +kernel

end Verif.Props
