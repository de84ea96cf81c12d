import Verif.Props.Documented
import Verif.Props.Reads

/-!
# What the methods of the lexer do

The comments in `lexer.rs` say what each method skips and which count it returns. Each method is
described here by the bytes ahead of the cursor alone.
-/

namespace Verif.Props

open Verif Verif.Spec

/-- The bytes ahead of the cursor. -/
def ahead (s : Lexer) : Bytes := s.stream.drop s.stream_position

/-- The cursor has moved over the next `n` bytes; the line counter has counted the line ends among
them. -/
structure Moved (s : Lexer) (n : Nat) (s' : Lexer) : Prop where
  stream : s'.stream = s.stream
  position : s'.stream_position = s.stream_position + n
  line : s'.current_line_number = s.current_line_number + lineEnds ((ahead s).take n)

theorem Moved.zero (s : Lexer) : Moved s 0 s := ⟨rfl, rfl, by simp [lineEnds]⟩

theorem Moved.ahead {s s' : Lexer} {n : Nat} (h : Moved s n s') : ahead s' = (ahead s).drop n := by
  simp [Props.ahead, h.stream, h.position]

theorem Moved.trans {s s' s'' : Lexer} {n k : Nat} (h : Moved s n s') (h' : Moved s' k s'') : Moved s (n + k) s'' := by
  refine ⟨h'.stream.trans h.stream, by rw [h'.position, h.position, Nat.add_assoc], ?_⟩
  rw [h'.line, h.line, h.ahead, List.take_add, lineEnds_append, Nat.add_assoc]

theorem moved_advance {s : Lexer} (h : ahead s ≠ []) : Moved s 1 s.advance := by
  refine ⟨rfl, rfl, ?_⟩
  have hp : s.peek = (ahead s).head? := Lexer.peek_eq s
  cases ha : ahead s with
  | nil => exact absurd ha h
  | cons c r =>
    rw [ha] at hp
    simp only [Lexer.advance, hp, List.head?_cons, List.take_succ_cons, List.take_zero, lineEnds,
      List.countP_singleton, is_newline]
    by_cases hc : (c == 10 || c == 13) = true <;> simp [hc]

theorem moved_loop (p : UInt8 → Bool) (fuel k : Nat) (s : Lexer) (h : (ahead s).length ≤ fuel) :
    Moved s ((ahead s).takeWhile p).length (Lexer.skip_while_loop p fuel k s).2 := by
  induction fuel generalizing k s with
  | zero =>
    have : ahead s = [] := by simpa using h
    simpa [Lexer.skip_while_loop, this] using Moved.zero s
  | succ fuel ih =>
    have hp : s.peek = (ahead s).head? := Lexer.peek_eq s
    simp only [Lexer.skip_while_loop, hp]
    cases hr : ahead s with
    | nil => simpa using Moved.zero s
    | cons c r =>
      by_cases hc : p c = true
      · have hm := moved_advance (s := s) (by rw [hr]; simp)
        have ha : ahead s.advance = r := by rw [hm.ahead, hr]; rfl
        have := ih (k + 1) s.advance (by rw [ha]; rw [hr] at h; simpa using h)
        rw [ha] at this
        have h2 := hm.trans this
        simp only [List.head?_cons, hc, if_true, List.takeWhile_cons, List.length_cons]
        rw [Nat.add_comm]
        exact h2
      · simpa [hc] using Moved.zero s

/-- **C91** `peek` returns the byte at the cursor, if any, and `advance` moves over it. -/
theorem C91_peek (s : Lexer) :
    s.peek = (ahead s).head? ∧ (ahead s ≠ [] → Moved s 1 s.advance) :=
  ⟨Lexer.peek_eq s, moved_advance⟩

/-- **C91** `skip_while` moves over the bytes that satisfy the predicate, up to the first that does
not, and returns their number; `skip_unless` moves over those that do not satisfy it. -/
theorem C91_skip (p : UInt8 → Bool) (s : Lexer) :
    (s.skip_while p).1 = ((ahead s).takeWhile p).length ∧ Moved s (s.skip_while p).1 (s.skip_while p).2 ∧
    (s.skip_unless p).1 = ((ahead s).takeWhile (fun c => !p c)).length ∧
      Moved s (s.skip_unless p).1 (s.skip_unless p).2 := by
  have key : ∀ p : UInt8 → Bool,
      (s.skip_while p).1 = ((ahead s).takeWhile p).length ∧ Moved s (s.skip_while p).1 (s.skip_while p).2 := by
    intro p
    have h := (Lexer.skip_while_spec p s).1
    refine ⟨h, ?_⟩
    rw [h]
    exact moved_loop p _ 0 s (by simp [ahead])
  exact ⟨(key p).1, (key p).2, (key _).1, (key _).2⟩

/-- **C91** `skip_whitespace` moves over spaces, tabs and backslashes; `skip_comment` moves to the
end of the line if the cursor is at a `#`, and not at all otherwise. Both return the number of
bytes skipped. -/
theorem C91_skip_blank (s : Lexer) :
    (s.skip_whitespace.1 = ((ahead s).takeWhile (fun c => c == 32 || c == 9 || c == 92)).length ∧
      Moved s s.skip_whitespace.1 s.skip_whitespace.2) ∧
    (s.skip_comment.1 = (if (ahead s).head? = some 35 then
        ((ahead s).takeWhile (fun c => c != 10 && c != 13)).length else 0) ∧
      Moved s s.skip_comment.1 s.skip_comment.2) := by
  constructor
  · obtain ⟨h1, h2, -⟩ := C91_skip is_whitespace s
    have e : is_whitespace = (fun c => c == 32 || c == 9 || c == 92) := by
      funext c
      simp only [is_whitespace]
      cases c == 32 <;> cases c == 9 <;> cases c == 92 <;> rfl
    exact ⟨e ▸ h1, h2⟩
  · obtain ⟨-, -, h1, h2⟩ := C91_skip is_newline s
    have e : (fun c => !is_newline c) = (fun c => c != 10 && c != 13) := by
      funext c
      simp only [is_newline, bne]
      cases c == 10 <;> cases c == 13 <;> rfl
    have hp : s.peek = (ahead s).head? := Lexer.peek_eq s
    unfold Lexer.skip_comment
    rw [hp]
    cases hr : (ahead s).head? with
    | none => exact ⟨by simp, Moved.zero s⟩
    | some c =>
      by_cases hc : c = 35
      · subst hc
        simp only [if_true]
        exact ⟨e ▸ h1, h2⟩
      · simp only [hc, if_false, Option.some.injEq]
        exact ⟨trivial, Moved.zero s⟩

/-- A byte that separates words. -/
def separates (c : UInt8) : Prop := c = 32 ∨ c = 9 ∨ c = 92 ∨ c = 10 ∨ c = 13 ∨ c = 35

theorem separates_iff (c : UInt8) : separates c ↔ (is_whitespace_or_newline c || c == 35) = true := by
  simp only [separates, is_whitespace_or_newline, is_whitespace, is_newline, Bool.or_eq_true, beq_iff_eq]
  tauto

theorem drop_takeWhile (p : UInt8 → Bool) (l : Bytes) : l.drop (l.takeWhile p).length = l.dropWhile p := by
  induction l with
  | nil => rfl
  | cons c l ih => by_cases h : p c = true <;> simp [h, ih]

/-- **C91** `next_token` moves over blanks, over a comment if there is one, and over the token that
it returns: a line end, or a word, which goes on up to the next separator. It returns `None` only
if nothing but blanks and a comment is ahead. -/
theorem C91_next_token (s : Lexer) :
    ∃ blanks comment token rest, ahead s = blanks ++ (comment ++ (token ++ rest)) ∧
      (∀ c ∈ blanks, c = 32 ∨ c = 9 ∨ c = 92) ∧
      (comment = [] ∨ comment.head? = some 35 ∧ ∀ c ∈ comment, c ≠ 10 ∧ c ≠ 13) ∧
      Moved s (blanks.length + comment.length + token.length) s.next_token.2 ∧
      ((token = [] ∧ rest = [] ∧ s.next_token.1 = none) ∨
       ((token = [10] ∨ token = [13]) ∧ s.next_token.1 = some token) ∨
       (comment = [] ∧ token ≠ [] ∧ (∀ c ∈ token, ¬ separates c) ∧ (∀ c ∈ rest.head?, separates c) ∧
          s.next_token.1 = some token)) := by
  obtain ⟨⟨w1, w2⟩, -⟩ := C91_skip_blank s
  obtain ⟨-, ⟨c1, c2⟩⟩ := C91_skip_blank s.skip_whitespace.2
  have hw := w2.ahead
  rw [w1, drop_takeWhile] at hw
  have hc := c2.ahead
  have hm := w2.trans c2
  have hs : ahead s = (ahead s).takeWhile (fun c => c == 32 || c == 9 || c == 92) ++ ahead s.skip_whitespace.2 := by
    rw [hw, List.takeWhile_append_dropWhile]
  generalize hb : (ahead s).takeWhile (fun c => c == 32 || c == 9 || c == 92) = blanks at hs w1
  have hblank : ∀ c ∈ blanks, c = 32 ∨ c = 9 ∨ c = 92 := by
    intro c h
    rw [← hb] at h
    have := Lexer.mem_takeWhile_imp h
    simpa [or_assoc] using this
  have hnot : ∀ c ∈ (ahead s.skip_whitespace.2).head?, ¬ (c = 32 ∨ c = 9 ∨ c = 92) := by
    intro c h
    rw [hw] at h
    cases hd : (ahead s).dropWhile (fun c => c == 32 || c == 9 || c == 92) with
    | nil => rw [hd] at h; cases h
    | cons d r =>
      rw [hd] at h
      simp only [List.head?_cons, Option.mem_def, Option.some.injEq] at h
      subst h
      have := Lexer.dropWhile_head hd
      simpa [or_assoc, and_assoc] using this
  generalize hs1 : s.skip_whitespace.2 = s1 at *
  -- the comment, and what follows it
  obtain ⟨comment, h1, h2, h3, h4⟩ : ∃ comment, ahead s1 = comment ++ ahead s1.skip_comment.2 ∧
      s1.skip_comment.1 = comment.length ∧
      (comment = [] ∨ comment.head? = some 35 ∧ ∀ c ∈ comment, c ≠ 10 ∧ c ≠ 13) ∧
      (∀ c ∈ (ahead s1.skip_comment.2).head?, c ≠ 10 ∧ c ≠ 13 → comment = [] ∧ ¬ separates c) := by
    by_cases h35 : (ahead s1).head? = some 35
    · rw [if_pos h35] at c1
      rw [c1, drop_takeWhile] at hc
      refine ⟨(ahead s1).takeWhile (fun c => c != 10 && c != 13), ?_, c1, .inr ⟨?_, ?_⟩, ?_⟩
      · rw [hc, List.takeWhile_append_dropWhile]
      · cases ha : ahead s1 with
        | nil => rw [ha] at h35; cases h35
        | cons d r =>
          rw [ha] at h35
          simp only [List.head?_cons, Option.some.injEq] at h35
          subst h35
          rfl
      · intro c h
        simpa using Lexer.mem_takeWhile_imp h
      · intro c h h'
        exfalso
        rw [hc] at h
        cases hd : (ahead s1).dropWhile (fun c => c != 10 && c != 13) with
        | nil => rw [hd] at h; cases h
        | cons d r =>
          rw [hd] at h
          simp only [List.head?_cons, Option.mem_def, Option.some.injEq] at h
          subst h
          have := Lexer.dropWhile_head hd
          simp [h'] at this
    · rw [if_neg h35] at c1
      rw [c1, List.drop_zero] at hc
      refine ⟨[], by rw [hc]; rfl, c1, .inl rfl, ?_⟩
      intro c h h'
      rw [hc] at h
      refine ⟨rfl, ?_⟩
      have h5 := hnot c h
      rintro (h | h | h | h | h | h)
      · exact h5 (.inl h)
      · exact h5 (.inr (.inl h))
      · exact h5 (.inr (.inr h))
      · exact h'.1 h
      · exact h'.2 h
      · subst h; exact h35 h
  rw [w1, h2] at hm
  have hp : s1.skip_comment.2.peek = (ahead s1.skip_comment.2).head? := Lexer.peek_eq _
  obtain ⟨-, -, q1, q2⟩ := C91_skip (fun ch => is_whitespace_or_newline ch || ch == 35) s1.skip_comment.2
  unfold Lexer.next_token
  simp only [hs1]
  generalize s1.skip_comment.2 = s2 at *
  rw [hp]
  cases hr : ahead s2 with
  | nil =>
    refine ⟨blanks, comment, [], [], by rw [hs, h1, hr]; simp, hblank, h3, by simpa using hm, .inl ⟨rfl, rfl, rfl⟩⟩
  | cons c r =>
    have hslice : ∀ n s3, Moved s2 n s3 → n ≤ (ahead s2).length →
        s3.slice s2.stream_position s3.stream_position = some ((ahead s2).take n) := by
      intro n s3 h hn
      rw [h.position, Lexer.slice_spec]
      · rw [h.stream]; rfl
      · rw [h.stream]
        simp only [ahead, List.length_drop] at hn
        have : 0 < (ahead s2).length := by rw [hr]; simp
        simp only [ahead, List.length_drop] at this
        omega
    simp only [List.head?_cons]
    by_cases hn : is_newline c = true
    · simp only [hn, if_true]
      have h5 := moved_advance (s := s2) (by rw [hr]; simp)
      refine ⟨blanks, comment, [c], r, by rw [hs, h1, hr]; simp, hblank, h3, hm.trans h5, .inr (.inl ⟨?_, ?_⟩)⟩
      · simp only [is_newline, Bool.or_eq_true, beq_iff_eq] at hn
        rcases hn with rfl | rfl
        · exact .inl rfl
        · exact .inr rfl
      · rw [hslice 1 _ h5 (by rw [hr]; simp), hr]
        rfl
    · simp only [hn, Bool.false_eq_true, if_false]
      have hsep := h4 c (by rw [hr]; rfl) (by simpa [is_newline] using hn)
      have hpos : 0 < ((ahead s2).takeWhile (fun c => !(is_whitespace_or_newline c || c == 35))).length := by
        rw [hr, List.takeWhile_cons]
        have : (is_whitespace_or_newline c || c == 35) = false := by
          cases h : (is_whitespace_or_newline c || c == 35) with
          | false => rfl
          | true => exact absurd ((separates_iff c).mpr h) hsep.2
        simp [this]
      have hle : ((ahead s2).takeWhile (fun c => !(is_whitespace_or_newline c || c == 35))).length ≤ (ahead s2).length :=
        (List.takeWhile_prefix _).length_le
      rw [q1] at q2
      have hsl := hslice _ _ q2 hle
      rw [if_pos (by rw [q1]; exact hpos)]
      have hm' := hm.trans q2
      have htake : (ahead s2).take ((ahead s2).takeWhile (fun c => !(is_whitespace_or_newline c || c == 35))).length =
          (ahead s2).takeWhile (fun c => !(is_whitespace_or_newline c || c == 35)) :=
        (List.prefix_iff_eq_take.mp (List.takeWhile_prefix _)).symm
      rw [htake] at hsl
      refine ⟨blanks, comment, _, (ahead s2).dropWhile (fun c => !(is_whitespace_or_newline c || c == 35)), ?_, hblank, h3,
        hm', .inr (.inr ⟨hsep.1, ?_, ?_, ?_, hsl⟩)⟩
      · rw [List.takeWhile_append_dropWhile, hs, h1]
      · intro h; rw [h] at hpos; exact absurd hpos (by simp)
      · intro d hd h
        have h6 := Lexer.mem_takeWhile_imp hd
        rw [(separates_iff d).mp h] at h6
        cases h6
      · intro d hd
        cases he : (ahead s2).dropWhile (fun c => !(is_whitespace_or_newline c || c == 35)) with
        | nil => rw [he] at hd; cases hd
        | cons e t =>
          rw [he] at hd
          simp only [List.head?_cons, Option.mem_def, Option.some.injEq] at hd
          subst hd
          have h6 := Lexer.dropWhile_head he
          rw [separates_iff]
          cases h7 : (is_whitespace_or_newline e || e == 35) with
          | true => rfl
          | false => rw [h7] at h6; cases h6

/-- **C91** `PeekableLexer`: `peek` returns the token that `next_token` would, any number of times,
and `next_token` after it does what it would have done without it. A `next_token` of a lexer that
has peeked does not move the cursor. -/
theorem C91_peekable (s : PeekableLexer) :
    s.peek.1 = s.next_token.1 ∧ s.peek.2.peek = s.peek ∧ s.peek.2.next_token = s.next_token ∧
    s.peek.2.inner = s.next_token.2.inner ∧ s.next_token.2.cache = none ∧
    (∀ t, s.cache = some t → s.next_token = (t, ⟨s.inner, none⟩)) ∧
    (s.cache = none → s.next_token = (s.inner.next_token.1, ⟨s.inner.next_token.2, none⟩)) := by
  obtain ⟨inner, cache⟩ := s
  cases cache with
  | none => exact ⟨rfl, rfl, rfl, rfl, rfl, nofun, fun _ => rfl⟩
  | some t => exact ⟨rfl, rfl, rfl, rfl, rfl, fun t h => by cases h; rfl, nofun⟩

/-- A lexer that has peeked at `v` and one that has not. -/
example :
    let s := PeekableLexer.new (Lexer.new b!"v 1")
    s.peek.1 = some b!"v" ∧ s.peek.2.cache = some (some b!"v") ∧ s.peek.2.next_token.1 = some b!"v" ∧
      s.next_token.2.peek.1 = some b!"1" := by
  decide +kernel

/-- **C91** The model of the lexer that counts its looks at the text (C85) does what the lexer does,
method by method, with the same return values. -/
theorem C91_counting (s : Reads.Lexer) (p : UInt8 → Bool) :
    s.peek.1 = s.lexer.peek ∧ s.peek.2.lexer = s.lexer ∧ s.advance.lexer = s.lexer.advance ∧
    ((s.skip_while p).1, (s.skip_while p).2.lexer) = s.lexer.skip_while p ∧
    ((s.skip_unless p).1, (s.skip_unless p).2.lexer) = s.lexer.skip_unless p ∧
    (s.skip_whitespace.1, s.skip_whitespace.2.lexer) = s.lexer.skip_whitespace ∧
    (s.skip_comment.1, s.skip_comment.2.lexer) = s.lexer.skip_comment ∧
    (s.next_token.1, s.next_token.2.lexer) = s.lexer.next_token := by
  have key : ∀ (p : UInt8 → Bool) (s : Reads.Lexer),
      ((s.skip_while p).1, (s.skip_while p).2.lexer) = s.lexer.skip_while p := by
    intro p s
    obtain ⟨h1, h2, -⟩ := Reads.Lexer.skip_while_spec p s
    exact Prod.ext h1 h2
  refine ⟨rfl, rfl, rfl, key _ _, key _ _, key _ _, ?_, ?_⟩
  · unfold Reads.Lexer.skip_comment Lexer.skip_comment
    simp only [Reads.Lexer.peek]
    cases s.lexer.peek with
    | none => rfl
    | some c =>
      by_cases hc : c = 35
      · simp only [hc, if_true]; exact key _ _
      · simp only [hc, if_false]
  · obtain ⟨h1, h2, -⟩ := Reads.Lexer.next_token_spec s
    exact Prod.ext h1 h2

/-- The cursor before ` # note`: one blank, then a comment of six bytes, then the line end is the
token. -/
example :
    let s : Lexer := { current_line_number := 1, stream_position := 3, stream := b!"v 1 # note\nv" }
    s.skip_whitespace.1 = 1 ∧ s.skip_whitespace.2.skip_comment.1 = 6 ∧ s.next_token =
      (some b!"\n", { current_line_number := 2, stream_position := 11, stream := b!"v 1 # note\nv" }) := by
  decide +kernel

end Verif.Props
