import Verif.Model.Machine
import Verif.Proofs.Text
import Verif.Proofs.Yields

/-!
# The lexer and the line counters never overflow
-/

namespace Verif.Machine

open Verif

theorem cadd_eq {limit a b : Nat} (h : a + b ≤ limit) : cadd limit a b = some (a + b) := if_pos h

/-- Position and line of the lexer are within the stream. -/
structure Fit (limit : Nat) (s : Lexer) : Prop where
  len : s.stream.length < limit
  pos : s.stream_position ≤ s.stream.length
  line : s.current_line_number ≤ 1 + s.stream_position

theorem peek_lt {s : Lexer} {ch : UInt8} (h : s.peek = some ch) : s.stream_position < s.stream.length := by
  unfold Lexer.peek at h
  exact (List.getElem?_eq_some_iff.mp h).1

theorem advance_eq {limit : Nat} {s : Lexer} {ch : UInt8} (hs : Fit limit s) (h : s.peek = some ch) :
    advance limit s = some s.advance ∧ Fit limit s.advance ∧ s.current_line_number ≤ s.advance.current_line_number ∧
      (is_newline ch = true → s.current_line_number + 1 ≤ s.advance.current_line_number) := by
  have hp := peek_lt h
  obtain ⟨h1, h2, h3⟩ := hs
  unfold advance Lexer.advance
  rw [h]
  dsimp only
  rw [cadd_eq (a := s.stream_position) (by omega), cadd_eq (by omega)]
  split
  · refine ⟨rfl, ⟨h1, hp, ?_⟩, ?_, ?_⟩ <;> (try dsimp only) <;> omega
  · refine ⟨rfl, ⟨h1, hp, ?_⟩, ?_, fun _ => by contradiction⟩ <;> (try dsimp only) <;> omega

theorem skip_while_loop_eq {limit : Nat} (p : UInt8 → Bool) (fuel k : Nat) {s : Lexer} (hs : Fit limit s)
    (hk : k ≤ s.stream_position) :
    skip_while_loop limit p fuel k s = some (Lexer.skip_while_loop p fuel k s) ∧
      Fit limit (Lexer.skip_while_loop p fuel k s).2 ∧
      s.current_line_number ≤ (Lexer.skip_while_loop p fuel k s).2.current_line_number := by
  induction fuel generalizing k s with
  | zero => exact ⟨rfl, hs, Nat.le_refl _⟩
  | succ fuel ih =>
    unfold skip_while_loop Lexer.skip_while_loop
    cases h : s.peek with
    | none => exact ⟨rfl, hs, Nat.le_refl _⟩
    | some ch =>
      dsimp only
      split
      · obtain ⟨e, h1, h2, -⟩ := advance_eq hs h
        rw [e]
        have hp := peek_lt h
        have := hs.len
        dsimp only [Option.bind_eq_bind, Option.bind_some]
        rw [cadd_eq (by omega)]
        obtain ⟨h3, h4, h5⟩ := ih (k := k + 1) h1 (by show k + 1 ≤ s.stream_position + 1; omega)
        exact ⟨h3, h4, by omega⟩
      · exact ⟨rfl, hs, Nat.le_refl _⟩

theorem skip_while_eq {limit : Nat} (p : UInt8 → Bool) {s : Lexer} (hs : Fit limit s) :
    skip_while limit p s = some (s.skip_while p) ∧ Fit limit (s.skip_while p).2 ∧
      s.current_line_number ≤ (s.skip_while p).2.current_line_number :=
  skip_while_loop_eq p _ 0 hs (Nat.zero_le _)

theorem skip_comment_eq {limit : Nat} {s : Lexer} (hs : Fit limit s) :
    skip_comment limit s = some s.skip_comment ∧ Fit limit s.skip_comment.2 ∧
      s.current_line_number ≤ s.skip_comment.2.current_line_number := by
  unfold skip_comment Lexer.skip_comment
  cases h : s.peek with
  | none => exact ⟨rfl, hs, Nat.le_refl _⟩
  | some ch =>
    dsimp only
    split
    · exact skip_while_eq _ hs
    · exact ⟨rfl, hs, Nat.le_refl _⟩

/-- What a token adds to the line counter. -/
def weight (t : Option Tok) : Nat := if t = some nl then 1 else 0

theorem skip_while_stream (p : UInt8 → Bool) (s : Lexer) : (s.skip_while p).2.stream = s.stream :=
  (Lexer.skip_while_spec p s).2.2.1

theorem next_token_eq {limit : Nat} {s : Lexer} (hs : Fit limit s) :
    next_token limit s = some s.next_token ∧ Fit limit s.next_token.2 ∧
      s.current_line_number + weight s.next_token.1 ≤ s.next_token.2.current_line_number := by
  obtain ⟨e1, f1, l1⟩ := skip_while_eq is_whitespace hs
  obtain ⟨e2, f2, l2⟩ := skip_comment_eq f1
  unfold next_token Lexer.next_token
  rw [e1]
  dsimp only [Option.bind_eq_bind, Option.bind_some, Lexer.skip_whitespace]
  rw [e2]
  dsimp only [Option.bind_some]
  generalize hu : (s.skip_while is_whitespace).2.skip_comment.2 = u at f2 l2
  cases h : u.peek with
  | none => exact ⟨rfl, f2, by simp only [weight]; simp; omega⟩
  | some ch =>
    dsimp only
    split
    · rename_i hn
      obtain ⟨e3, f3, l3, l4⟩ := advance_eq f2 h
      rw [e3]
      refine ⟨rfl, f3, ?_⟩
      have := l4 hn
      dsimp only [weight]
      split <;> omega
    · rename_i hn
      obtain ⟨e3, f3, l3⟩ := skip_while_eq (fun ch => !(is_whitespace_or_newline ch || ch == 35)) f2
      have e3' : skip_unless limit (fun ch => is_whitespace_or_newline ch || ch == 35) u =
          some (u.skip_unless (fun ch => is_whitespace_or_newline ch || ch == 35)) := e3
      rw [e3']
      dsimp only [Option.bind_some]
      have f3' : Fit limit (u.skip_unless (fun ch => is_whitespace_or_newline ch || ch == 35)).2 := f3
      have l3' : u.current_line_number ≤
        (u.skip_unless (fun ch => is_whitespace_or_newline ch || ch == 35)).2.current_line_number := l3
      have hst : (u.skip_unless (fun ch => is_whitespace_or_newline ch || ch == 35)).2.stream = u.stream :=
        skip_while_stream _ u
      generalize u.skip_unless (fun ch => is_whitespace_or_newline ch || ch == 35) = r at f3' l3' hst
      split
      · refine ⟨rfl, f3', ?_⟩
        have : r.2.slice u.stream_position r.2.stream_position ≠ some nl := by
          intro hc
          unfold Lexer.slice at hc
          split at hc
          · injection hc with hc
            rw [hst] at hc
            have h0 := congrArg (fun l => l[0]?) hc
            unfold Lexer.peek at h
            simp only [List.getElem?_take, List.getElem?_drop, Nat.add_zero, h, nl] at h0
            split at h0
            · simp only [List.getElem?_cons_zero, Option.some.injEq] at h0
              subst h0
              exact hn rfl
            · simp at h0
          · cases hc
        dsimp only [weight]
        rw [if_neg this]
        omega
      · exact ⟨rfl, f3', by simp only [weight]; simp; omega⟩

/-- The token source agrees with the plain one, and everything fits. -/
structure Good (m : Stream) (l : PeekableLexer) : Prop where
  lexer : m.lexer = l
  flag : m.overflow = false
  fit : Fit m.limit l.inner
  line : m.line + (match l.cache with | some t => weight t | none => 0) ≤ l.inner.current_line_number

theorem count_eq {m : Stream} {t : Option Tok} (h : m.line + weight t ≤ m.limit) :
    m.count t = { m with line := m.line + weight t } := by
  unfold Stream.count
  split
  · rename_i ht
    rw [weight, if_pos ht] at h ⊢
    rw [cadd_eq h]
  · rename_i ht
    rw [weight, if_neg ht]
    rfl

theorem good_bisim : Bisim Good where
  peek := by
    rintro ⟨limit, l, line, flag⟩ l' ⟨rfl, h1, h2, h3⟩
    show (Stream.peek _).1 = (PeekableLexer.peek _).1 ∧ Good (Stream.peek _).2 (PeekableLexer.peek _).2
    rcases l with ⟨inner, cache⟩
    dsimp only at *
    subst h1
    cases cache with
    | some t => exact ⟨rfl, rfl, rfl, h2, h3⟩
    | none =>
      obtain ⟨e, f, hl⟩ := next_token_eq h2
      unfold Stream.peek PeekableLexer.peek
      dsimp only at h3 ⊢
      rw [e]
      exact ⟨rfl, rfl, rfl, f, by dsimp only; omega⟩
  next := by
    rintro ⟨limit, l, line, flag⟩ l' ⟨rfl, h1, h2, h3⟩
    show (Stream.next _).1 = (PeekableLexer.next_token _).1 ∧ Good (Stream.next _).2 (PeekableLexer.next_token _).2
    rcases l with ⟨inner, cache⟩
    dsimp only at *
    subst h1
    cases cache with
    | some t =>
      unfold Stream.next PeekableLexer.next_token
      obtain ⟨f1, f2, f3⟩ := h2
      dsimp only at h3 ⊢
      rw [count_eq (by dsimp only; omega)]
      exact ⟨rfl, rfl, rfl, ⟨f1, f2, f3⟩, by dsimp only; omega⟩
    | none =>
      obtain ⟨e, f, hl⟩ := next_token_eq h2
      unfold Stream.next PeekableLexer.next_token
      obtain ⟨f1, f2, f3⟩ := f
      dsimp only at h3 ⊢
      rw [e]
      dsimp only
      rw [count_eq (by dsimp only; omega)]
      exact ⟨rfl, rfl, rfl, ⟨f1, f2, f3⟩, by dsimp only; omega⟩

theorem good_new {limit : Nat} {input : Bytes} (h : input.length < limit) :
    Good (Stream.new limit input) (PeekableLexer.new (Lexer.new input)) :=
  ⟨rfl, rfl, ⟨h, Nat.zero_le _, Nat.le_refl _⟩, Nat.le_refl _⟩

theorem peek_line {m : Stream} : m.peek.2.line = m.line := by
  unfold Stream.peek
  split
  · rfl
  · split <;> rfl

theorem next_line {m : Stream} {l : PeekableLexer} (h : Good m l) : m.next.2.line = m.line + weight m.next.1 := by
  rcases m with ⟨limit, ⟨inner, cache⟩, line, flag⟩
  obtain ⟨rfl, h1, h2, h3⟩ := h
  dsimp only at *
  unfold Stream.next
  cases cache with
  | some t =>
    obtain ⟨f1, f2, f3⟩ := h2
    dsimp only at h3 ⊢
    rw [count_eq (by dsimp only; omega)]
  | none =>
    obtain ⟨e, ⟨f1, f2, f3⟩, hl⟩ := next_token_eq h2
    dsimp only at h3 ⊢
    rw [e]
    dsimp only
    rw [count_eq (by dsimp only; omega)]

/-- A list of tokens and the machine source that still holds them; `total` is the line
number at the end. -/
def Tracks (total : Nat) (toks : List Tok) (m : Stream) : Prop :=
  ∃ l, Good m l ∧ Holds l toks ∧ m.line + nls toks = total

theorem tracks_bisim (total : Nat) : Bisim (Tracks total) where
  peek := fun toks m ⟨l, h1, h2, h3⟩ => by
    have a := good_bisim.peek m l h1
    have b := holds_bisim.peek l toks h2
    refine ⟨(a.1.trans b.1).symm, _, a.2, b.2, ?_⟩
    show (Stream.peek m).2.line + _ = _
    rw [peek_line]
    exact h3
  next := fun toks m ⟨l, h1, h2, h3⟩ => by
    have a := good_bisim.next m l h1
    have b := holds_bisim.next l toks h2
    refine ⟨(a.1.trans b.1).symm, _, a.2, b.2, ?_⟩
    show (Stream.next m).2.line + nls toks.tail = _
    rw [next_line h1]
    have e : m.next.1 = toks.head? := a.1.trans b.1
    rw [e]
    cases toks with
    | nil => simpa [weight] using h3
    | cons t toks =>
      simp only [List.head?_cons, List.tail_cons, weight, Option.some.injEq, nls] at h3 ⊢
      by_cases ht : t = nl
      · subst ht
        rw [List.count_cons_self] at h3
        rw [if_pos rfl]; omega
      · rw [List.count_cons_of_ne ht] at h3
        rw [if_neg ht]; omega

theorem tracks_new {limit : Nat} {input : Bytes} (h : input.length < limit) :
    Tracks (1 + nls (Spec.tokens input)) (Spec.tokens input) (Stream.new limit input) :=
  ⟨_, good_new h, holds_new input, rfl⟩

/-- A run on the token list is a run on the machine source. -/
theorem run_machine {K α : Type} {p : P (List Tok) K α} {q : P Stream K α} {limit : Nat} {input : Bytes}
    (hlen : input.length < limit) (hsim : Sim 0 (Tracks (1 + nls (Spec.tokens input))) p q) {o : Res K α}
    {rest : List Tok} {line : Nat} (e1 : line + nls rest = 1 + nls (Spec.tokens input))
    (e2 : p ⟨1, Spec.tokens input⟩ = (o.at line, ⟨line, rest⟩)) :
    (q ⟨1, Stream.new limit input⟩).1 = o.at line ∧ (q ⟨1, Stream.new limit input⟩).2.line_number = line ∧
      (q ⟨1, Stream.new limit input⟩).2.lexer.line = line ∧
      (q ⟨1, Stream.new limit input⟩).2.lexer.overflow = false := by
  obtain ⟨h1, h2⟩ := hsim.run ⟨1, Spec.tokens input⟩ ⟨1, Stream.new limit input⟩ ⟨rfl, tracks_new hlen⟩
  rw [e2] at h1 h2
  refine ⟨?_, ?_⟩
  · generalize (q ⟨1, Stream.new limit input⟩).1 = x at h1
    cases o <;> cases x <;> simp_all [OutRel, Res.at]
  · rcases h2 with h2 | ⟨h2, l, h3, -, h4⟩
    · cases o <;> simp [Res.at] at h2
    · dsimp only at h2 h4
      exact ⟨by omega, by omega, h3.flag⟩

end Verif.Machine
