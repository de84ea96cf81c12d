import Verif.Proofs.Congr

/-!
# Properties C01–C06: tokenisation

The specification is `Spec.tokens` in `Verif/Spec/Lexer.lean`.
-/

namespace Verif.Props

open Verif Verif.Spec

/-! ## C01 -/

/-- The lexer after `n` calls of `next_token`. -/
def afterCalls : Nat → Lexer → Lexer
  | 0, s => s
  | n + 1, s => afterCalls n s.next_token.2

/-- The result of the `n`-th call (counting from 0) of `next_token` on a fresh lexer. -/
def lexerCall (input : Bytes) (n : Nat) : Option Tok :=
  (afterCalls n (Lexer.new input)).next_token.1

theorem lexer_iterate (n : Nat) (s : Lexer) :
    tokens (afterCalls n s).rest = (tokens s.rest).drop n := by
  induction n generalizing s with
  | zero => rfl
  | succ n ih =>
    rw [afterCalls, ih, (next_token_tokens s).2]
    simp

/-- **C01** The calls of `next_token` on a fresh lexer return, in order, exactly the
tokens of the specification, and then nothing. -/
theorem C01_tokenisation (input : Bytes) (n : Nat) : lexerCall input n = (tokens input)[n]? := by
  have h : (Lexer.new input).rest = input := by simp [Lexer.new, Lexer.rest]
  rw [lexerCall, (next_token_tokens _).1, lexer_iterate, h, List.head?_drop]

example : tokens b!"v 1\t2#x y\n\n f\\1/2" =
    [b!"v", b!"1", b!"2", b!"\n", b!"\n", b!"f", b!"1/2"] := by decide +kernel
example : lexerCall b!"v 1\t2#x y\n\n f\\1/2" 5 = some b!"f" := by decide +kernel

/-- **C01** (what the specification says, symbol by symbol) Every token is either one
line terminator or a non-empty run of symbols none of which is a blank, a line
terminator or `#`. -/
theorem C01_token_shape (input : Bytes) : ∀ t ∈ tokens input,
    (t = b!"\n" ∨ t = b!"\r") ∨
    (t ≠ [] ∧ ∀ c ∈ t, c ≠ 32 ∧ c ≠ 9 ∧ c ≠ 92 ∧ c ≠ 10 ∧ c ≠ 13 ∧ c ≠ 35) := by
  intro t ht
  rcases token_shape byteAlphabet_disjoint input t ht with ⟨c, hc, rfl⟩ | ⟨h1, h2⟩
  · simp only [byteAlphabet, Bool.or_eq_true, beq_iff_eq] at hc
    rcases hc with rfl | rfl
    · exact .inl (.inl rfl)
    · exact .inl (.inr rfl)
  · refine .inr ⟨h1, fun c hc => ?_⟩
    have := ordinary_iff.mp (h2 c hc)
    simp only [byteAlphabet, Bool.or_eq_false_iff, beq_eq_false_iff_ne] at this
    obtain ⟨⟨h1, h2⟩, ⟨⟨h3, h4⟩, h5⟩, h6⟩ := this
    exact ⟨h3, h4, h5, h1, h2, h6⟩

/-- **C01** (nothing is lost, duplicated or reordered) Cutting the token sequence at a
token is cutting the text at that token. -/
theorem C01_token_position {input : Bytes} {pre post : List Tok} {t : Tok}
    (h : tokens input = pre ++ t :: post) :
    ∃ a b, input = a ++ t ++ b ∧ tokens a = pre ∧ tokens b = post :=
  token_position byteAlphabet_disjoint h

example : tokens b!"v 1 # c\nf" = [b!"v", b!"1"] ++ b!"\n" :: [b!"f"] := by decide +kernel

/-! ## C02 -/

/-- **C02** On the bytes of any string of Unicode characters, every token that is handed
to `from_utf8_unchecked` is the encoding of a contiguous run of that string's
characters, so it is valid UTF-8. -/
theorem C02_utf8 (s : List Char) (n : Nat) (t : Tok) (h : lexerCall (encode s) n = some t) :
    ∃ a w b : List Char, s = a ++ w ++ b ∧ t = encode w ∧
      ByteArray.IsValidUTF8 t.toByteArray := by
  rw [C01_tokenisation, tokens_encode] at h
  have hm := List.mem_of_getElem? h
  obtain ⟨w, hw, rfl⟩ := List.mem_map.mp hm
  obtain ⟨pre, post, e⟩ := List.append_of_mem hw
  obtain ⟨a, b, e1, -, -⟩ := token_position charAlphabet_disjoint e
  exact ⟨a, w, b, e1, rfl, ⟨w, rfl⟩⟩

/-- **C02** More precisely, tokenisation of bytes is tokenisation of characters. -/
theorem C02_tokens_of_characters (s : List Char) (n : Nat) :
    lexerCall (encode s) n = ((tokensOf charAlphabet s)[n]?).map encode := by
  rw [C01_tokenisation, tokens_encode, List.getElem?_map]

example : lexerCall (encode "o é#ü\n∀".toList) 1 = some (encode "é".toList) := by decide +kernel

/-- **C02** `encode` is the encoding that `String` uses. -/
theorem C02_encode_is_utf8 (s : String) : (encode s.toList).toByteArray = s.toByteArray := by
  conv => rhs; rw [← String.ofList_toList (s := s)]
  rfl

/-! ## C03 -/

/-- **C03** `next_token` returns `None` only when what is left is blanks and at most one
unterminated comment. -/
theorem C03_none_only_at_end (s : Lexer) (h : s.next_token.1 = none) :
    ∃ blanks comment, s.stream.drop s.stream_position = blanks ++ comment ∧
      (∀ c ∈ blanks, c = 32 ∨ c = 9 ∨ c = 92) ∧
      (comment = [] ∨ comment.head? = some 35 ∧ ∀ c ∈ comment, c ≠ 10 ∧ c ≠ 13) := by
  rw [(Lexer.next_token_spec s).1] at h
  have hr : s.stream.drop s.stream_position = s.rest := rfl
  rw [hr]
  generalize s.rest = r at h
  refine ⟨r.takeWhile is_whitespace, r.dropWhile is_whitespace,
    (List.takeWhile_append_dropWhile ..).symm, ?_, ?_⟩
  · intro c hc
    have := mem_takeWhile c hc
    simp only [is_whitespace, Bool.or_eq_true, beq_iff_eq] at this
    rcases this with (h | h) | h <;> simp [h]
  · simp only [Lexer.nextTok] at h
    generalize r.dropWhile is_whitespace = q at h
    by_cases hq : q.head? = some 35
    · rw [if_pos hq] at h
      refine .inr ⟨hq, fun c hc => ?_⟩
      have hall : q.dropWhile (fun c => !is_newline c) = [] := by
        cases hd : q.dropWhile (fun c => !is_newline c) with
        | nil => rfl
        | cons d l => rw [hd] at h; simp only at h; split at h <;> simp at h
      have e := List.takeWhile_append_dropWhile (p := fun c => !is_newline c) (l := q)
      rw [hall, List.append_nil] at e
      rw [← e] at hc
      have := mem_takeWhile c hc
      simp only [is_newline, Bool.not_eq_true', Bool.or_eq_false_iff, beq_eq_false_iff_ne] at this
      exact this
    · rw [if_neg hq] at h
      left
      cases q with
      | nil => rfl
      | cons d l => simp only at h; split at h <;> simp at h

/-- **C03** Once `next_token` has returned `None` it returns `None` forever. -/
theorem C03_none_forever (s : Lexer) (h : s.next_token.1 = none) (n : Nat) :
    (afterCalls n s).next_token.1 = none := by
  rw [(next_token_tokens _).1] at h ⊢
  rw [lexer_iterate, List.head?_drop]
  cases ht : tokens s.rest with
  | nil => simp
  | cons t l => rw [ht] at h; simp at h

/-- **C03** What is left shrinks with every token, so `None` is reached. -/
theorem C03_progress (s : Lexer) {t : Tok} (h : s.next_token.1 = some t) :
    (tokens (s.next_token.2.stream.drop s.next_token.2.stream_position)).length + 1 =
      (tokens (s.stream.drop s.stream_position)).length := by
  have := next_token_tokens s
  rw [h] at this
  show (tokens s.next_token.2.rest).length + 1 = (tokens s.rest).length
  rw [this.2]
  cases ht : tokens s.rest with
  | nil => rw [ht] at this; simp at this
  | cons t l => simp

example : (Lexer.new b!" \t# no newline").next_token.1 = none := by decide +kernel
example : (Lexer.new b!" \t# newline\n").next_token.1 = some b!"\n" := by decide +kernel

/-! ## C04 -/

/-- A call on the peekable lexer. -/
inductive PeekOp where
  | peek
  | next
deriving DecidableEq, Repr

/-- What a sequence of calls on the peekable lexer shows. -/
def observe : List PeekOp → PeekableLexer → List (Option Tok)
  | [], _ => []
  | .peek :: ops, s => s.peek.1 :: observe ops s.peek.2
  | .next :: ops, s => s.next_token.1 :: observe ops s.next_token.2

/-- What the same calls show on a cursor over a list. -/
def observeCursor : List PeekOp → List Tok → List (Option Tok)
  | [], _ => []
  | .peek :: ops, l => l.head? :: observeCursor ops l
  | .next :: ops, l => l.head? :: observeCursor ops l.tail

theorem observe_eq (ops : List PeekOp) {s : PeekableLexer} {l : List Tok} (h : Holds s l) :
    observe ops s = observeCursor ops l := by
  induction ops generalizing s l with
  | nil => rfl
  | cons op ops ih =>
    cases op with
    | peek =>
      have : _ ∧ Holds s.peek.2 l := holds_bisim.peek s l h
      have e : s.peek.1 = l.head? := this.1
      simp only [observe, observeCursor]
      rw [e, ih this.2]
    | next =>
      have : _ ∧ Holds s.next_token.2 l.tail := holds_bisim.next s l h
      have e : s.next_token.1 = l.head? := this.1
      simp only [observe, observeCursor]
      rw [e, ih this.2]

/-- **C04** Any sequence of `peek` and `next` calls observes a cursor over the tokens. -/
theorem C04_peek_transparent (input : Bytes) (ops : List PeekOp) :
    observe ops (PeekableLexer.new (Lexer.new input)) = observeCursor ops (tokens input) :=
  observe_eq ops (holds_new input)

example : observe [.peek, .peek, .next, .next, .peek, .next, .next] (PeekableLexer.new (Lexer.new b!"a b#\n"))
    = [some b!"a", some b!"a", some b!"a", some b!"b", some b!"\n", some b!"\n", none] := by
  decide +kernel

/-! ## C05 -/

/-- Deleting a comment does not change the tokens. -/
theorem tokens_delete_comment (before body after : Bytes) (hb : ∀ c ∈ body, c ≠ 10 ∧ c ≠ 13)
    (ha : after = [] ∨ after.head? = some 10 ∨ after.head? = some 13) :
    tokens (before ++ (35 :: body ++ after)) = tokens (before ++ after) := by
  refine tokens_congr before (view_comment byteAlphabet_disjoint (by decide) body after ?_ ?_)
  · intro c hc
    have := hb c hc
    simp [byteAlphabet, this.1, this.2]
  · intro c hc
    rcases ha with rfl | h | h
    · simp at hc
    · rw [h] at hc; simp only [Option.mem_def, Option.some.injEq] at hc; subst hc; decide
    · rw [h] at hc; simp only [Option.mem_def, Option.some.injEq] at hc; subst hc; decide

variable {F : Type} [FloatSem F]

/-- **C05** Deleting a comment changes nothing in what `obj::parse` returns. -/
theorem C05_comments_obj (cfg : Obj.Cfg) (before body after : Bytes)
    (hb : ∀ c ∈ body, c ≠ 10 ∧ c ≠ 13)
    (ha : after = [] ∨ after.head? = some 10 ∨ after.head? = some 13)
    (hlen : (before ++ (35 :: body ++ after)).length < 2 ^ 63) :
    (Obj.parse cfg (before ++ (35 :: body ++ after)) : Out Obj.ErrorKind (Obj.ObjectSet F)) =
      Obj.parse cfg (before ++ after) := by
  refine Obj.parse_congr hlen ?_ (tokens_delete_comment before body after hb ha)
  simp only [List.length_append, List.length_cons] at hlen ⊢
  omega

/-- **C05** Deleting a comment changes nothing in what `mtl::parse` returns. -/
theorem C05_comments_mtl (before body after : Bytes) (hb : ∀ c ∈ body, c ≠ 10 ∧ c ≠ 13)
    (ha : after = [] ∨ after.head? = some 10 ∨ after.head? = some 13) :
    (Mtl.parse (before ++ (35 :: body ++ after)) : Out Mtl.ErrorKind (Mtl.MaterialSet F)) =
      Mtl.parse (before ++ after) :=
  Mtl.parse_congr (tokens_delete_comment before body after hb ha)

example : (∀ c ∈ b!" a # b", c ≠ 10 ∧ c ≠ 13) ∧ (b!"\nf 1 2 3").head? = some 10 := by decide

/-! ## C06 -/

/-- Space, tab or backslash. -/
def IsBlank (c : UInt8) : Prop := c = 32 ∨ c = 9 ∨ c = 92

theorem IsBlank.blank {c : UInt8} (h : IsBlank c) : byteAlphabet.blank c = true := by
  rcases h with rfl | rfl | rfl <;> decide

theorem tokens_swap_blank (before after : Bytes) {c d : UInt8} (hc : IsBlank c) (hd : IsBlank d) :
    tokens (before ++ c :: after) = tokens (before ++ d :: after) := by
  refine tokens_congr before ?_
  rw [view_blank byteAlphabet_disjoint hc.blank, view_blank byteAlphabet_disjoint hd.blank]

theorem tokens_double_blank (before after : Bytes) {c d : UInt8} (hc : IsBlank c) (hd : IsBlank d) :
    tokens (before ++ c :: d :: after) = tokens (before ++ d :: after) :=
  tokens_congr before (view_blank_blank byteAlphabet_disjoint hc.blank hd.blank after)

/-- **C06** Replacing a blank by another changes nothing in what `obj::parse` returns. -/
theorem C06_swap_blank_obj (cfg : Obj.Cfg) (before after : Bytes) {c d : UInt8} (hc : IsBlank c)
    (hd : IsBlank d) (hlen : (before ++ c :: after).length < 2 ^ 63) :
    (Obj.parse cfg (before ++ c :: after) : Out Obj.ErrorKind (Obj.ObjectSet F)) =
      Obj.parse cfg (before ++ d :: after) :=
  Obj.parse_congr hlen (by simpa using hlen) (tokens_swap_blank before after hc hd)

/-- **C06** Doubling a blank changes nothing in what `obj::parse` returns. -/
theorem C06_double_blank_obj (cfg : Obj.Cfg) (before after : Bytes) {c d : UInt8} (hc : IsBlank c)
    (hd : IsBlank d) (hlen : (before ++ c :: d :: after).length < 2 ^ 63) :
    (Obj.parse cfg (before ++ c :: d :: after) : Out Obj.ErrorKind (Obj.ObjectSet F)) =
      Obj.parse cfg (before ++ d :: after) := by
  refine Obj.parse_congr hlen ?_ (tokens_double_blank before after hc hd)
  simp only [List.length_append, List.length_cons] at hlen ⊢
  omega

theorem C06_swap_blank_mtl (before after : Bytes) {c d : UInt8} (hc : IsBlank c) (hd : IsBlank d) :
    (Mtl.parse (before ++ c :: after) : Out Mtl.ErrorKind (Mtl.MaterialSet F)) =
      Mtl.parse (before ++ d :: after) :=
  Mtl.parse_congr (tokens_swap_blank before after hc hd)

theorem C06_double_blank_mtl (before after : Bytes) {c d : UInt8} (hc : IsBlank c) (hd : IsBlank d) :
    (Mtl.parse (before ++ c :: d :: after) : Out Mtl.ErrorKind (Mtl.MaterialSet F)) =
      Mtl.parse (before ++ d :: after) :=
  Mtl.parse_congr (tokens_double_blank before after hc hd)

example : IsBlank 32 ∧ IsBlank 9 ∧ IsBlank 92 ∧ ¬ IsBlank 10 := by unfold IsBlank; decide

end Verif.Props
