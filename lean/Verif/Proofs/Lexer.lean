import Verif.Model.Lexer
import Verif.Proofs.Tokens

/-!
# The lexer model computes the tokenisation specification
-/

namespace Verif

open Spec

namespace Lexer

/-- The bytes not yet consumed. -/
def rest (s : Lexer) : Bytes := s.stream.drop s.stream_position

theorem peek_eq (s : Lexer) : s.peek = s.rest.head? := by
  simp [peek, rest, List.head?_drop]

theorem rest_advance (s : Lexer) : s.advance.rest = s.rest.tail := by
  simp [advance, rest]

theorem stream_advance (s : Lexer) : s.advance.stream = s.stream := rfl

theorem pos_advance (s : Lexer) : s.advance.stream_position = s.stream_position + 1 := rfl

/-- What a skip loop does, in terms of the remaining bytes. -/
theorem skip_while_loop_spec (p : UInt8 → Bool) (fuel skipped : Nat) (s : Lexer)
    (hf : s.rest.length ≤ fuel) :
    (skip_while_loop p fuel skipped s).1 = skipped + (s.rest.takeWhile p).length ∧
    (skip_while_loop p fuel skipped s).2.rest = s.rest.dropWhile p ∧
    (skip_while_loop p fuel skipped s).2.stream = s.stream ∧
    (skip_while_loop p fuel skipped s).2.stream_position
      = s.stream_position + (s.rest.takeWhile p).length := by
  induction fuel generalizing skipped s with
  | zero =>
    have : s.rest = [] := by simpa using hf
    simp [skip_while_loop, this]
  | succ fuel ih =>
    simp only [skip_while_loop, peek_eq]
    cases hr : s.rest with
    | nil => simp [hr]
    | cons c r =>
      by_cases hp : p c = true
      · have h1 : s.advance.rest = r := by rw [rest_advance, hr]; rfl
        have := ih (skipped + 1) s.advance (by rw [h1]; rw [hr] at hf; simpa using hf)
        rw [h1, stream_advance, pos_advance] at this
        simp only [List.head?_cons, hp, if_true, List.takeWhile_cons, List.dropWhile_cons,
          List.length_cons]
        obtain ⟨a, b, c', d⟩ := this
        refine ⟨by rw [a]; omega, b, c', by rw [d]; omega⟩
      · simp [hp, hr]

theorem skip_while_spec (p : UInt8 → Bool) (s : Lexer) :
    (s.skip_while p).1 = (s.rest.takeWhile p).length ∧
    (s.skip_while p).2.rest = s.rest.dropWhile p ∧
    (s.skip_while p).2.stream = s.stream ∧
    (s.skip_while p).2.stream_position = s.stream_position + (s.rest.takeWhile p).length := by
  have := skip_while_loop_spec p (s.stream.length - s.stream_position) 0 s (by simp [rest])
  simpa [skip_while] using this

/-- The fuel of `skip_while` is never what ends the loop: afterwards the next byte
is absent or does not satisfy the predicate. -/
theorem skip_while_exit (p : UInt8 → Bool) (s : Lexer) :
    ∀ ch ∈ (s.skip_while p).2.peek, p ch = false := by
  intro ch hch
  rw [peek_eq, (skip_while_spec p s).2.1] at hch
  generalize s.rest = r at hch
  induction r with
  | nil => simp at hch
  | cons c r ih =>
    by_cases hp : p c = true
    · simp [hp] at hch; exact ih (by simpa using hch)
    · simp [hp] at hch; subst hch; simpa using hp

theorem slice_spec (s : Lexer) (start n : Nat) (h : start + n ≤ s.stream.length) :
    s.slice start (start + n) = some ((s.stream.drop start).take n) := by
  simp [slice, h]

/-- A byte that can be part of a word. -/
def wordByte (c : UInt8) : Bool := !(is_whitespace_or_newline c || c == 35)

theorem ordinary_eq (c : UInt8) : byteAlphabet.ordinary c = wordByte c := by
  simp only [Alphabet.ordinary, byteAlphabet, wordByte, is_whitespace_or_newline, is_whitespace,
    is_newline]
  cases c == 32 <;> cases c == 9 <;> cases c == 92 <;> simp

/-- What `next_token` does, in terms of the remaining bytes. -/
def nextTok (r : Bytes) : Option Tok × Bytes :=
  let r1 := r.dropWhile is_whitespace
  let r2 := if r1.head? = some 35 then r1.dropWhile (fun c => !is_newline c) else r1
  match r2 with
  | [] => (none, [])
  | c :: r3 =>
    if is_newline c then (some [c], r3)
    else (some ((c :: r3).takeWhile wordByte), (c :: r3).dropWhile wordByte)

theorem skip_comment_rest (s : Lexer) :
    s.skip_comment.2.rest =
      (if s.rest.head? = some 35 then s.rest.dropWhile (fun c => !is_newline c) else s.rest) ∧
    s.skip_comment.2.stream = s.stream := by
  simp only [skip_comment, peek_eq]
  cases hr : s.rest with
  | nil => simp [hr]
  | cons c r =>
    by_cases hc : c = 35
    · subst hc
      have := skip_while_spec (fun ch => !is_newline ch) s
      simp only [List.head?_cons, if_true, skip_unless]
      rw [this.2.1, this.2.2.1, hr]
      exact ⟨rfl, rfl⟩
    · simp [hc, hr]

theorem skip_comment_le (s : Lexer) : s.stream_position ≤ s.skip_comment.2.stream_position := by
  simp only [skip_comment, peek_eq]
  cases hr : s.rest.head? with
  | none => simp
  | some c =>
    by_cases hc : c = 35
    · simp only [hc, if_true, skip_unless]
      rw [(skip_while_spec _ s).2.2.2]
      omega
    · simp [hc]

theorem dropWhile_head {p : UInt8 → Bool} {l : List UInt8} {c : UInt8} {r : List UInt8}
    (h : l.dropWhile p = c :: r) : p c = false := by
  induction l with
  | nil => simp at h
  | cons d l ih =>
    by_cases hp : p d = true
    · simp [hp] at h; exact ih h
    · simp [hp] at h; rw [← h.1]; simpa using hp

theorem mem_takeWhile_imp {p : UInt8 → Bool} {l : List UInt8} {c : UInt8}
    (h : c ∈ l.takeWhile p) : p c = true := by
  induction l with
  | nil => simp at h
  | cons d l ih =>
    by_cases hp : p d = true
    · simp [hp] at h
      rcases h with h | h
      · rw [h]; exact hp
      · exact ih h
    · simp [hp] at h

theorem next_token_spec (s : Lexer) :
    s.next_token.1 = (nextTok s.rest).1 ∧ s.next_token.2.rest = (nextTok s.rest).2 ∧
      s.next_token.2.stream = s.stream := by
  have e1 := (skip_while_spec is_whitespace s)
  have e2 := skip_comment_rest s.skip_whitespace.2
  rw [show s.skip_whitespace.2.rest = s.rest.dropWhile is_whitespace from e1.2.1] at e2
  simp only [next_token, nextTok]
  generalize hs1 : s.skip_whitespace.2 = s1 at e2 ⊢
  have hst1 : s1.stream = s.stream := by rw [← hs1]; exact e1.2.2.1
  generalize hs2 : s1.skip_comment.2 = s2 at e2 ⊢
  have hst2 : s2.stream = s.stream := by rw [e2.2, hst1]
  have hhead : ∀ c r3, s2.rest = c :: r3 → is_whitespace c = false ∧
      (is_newline c = false → wordByte c = true) := by
    intro c r3 h
    rw [e2.1] at h
    split at h
    · have := dropWhile_head h
      simp at this
      refine ⟨?_, by simp [this]⟩
      revert this
      simp only [is_whitespace, is_newline]
      intro h
      simp at h
      rcases h with h | h <;> subst h <;> decide
    · rename_i hne
      have hw := dropWhile_head h
      have hc : c ≠ 35 := by
        intro hc; apply hne; rw [h, hc]; rfl
      refine ⟨hw, ?_⟩
      intro hn
      simp [wordByte, is_whitespace_or_newline, hw, hn, hc]
  rw [← e2.1]
  rw [peek_eq]
  cases hr : s2.rest with
  | nil => simp [hr, hst2]
  | cons c r3 =>
    obtain ⟨hws, hword⟩ := hhead c r3 hr
    have hlen : (c :: r3).length = s2.stream.length - s2.stream_position := by
      rw [← hr]; simp [rest]
    simp only [List.head?_cons]
    by_cases hn : is_newline c = true
    · simp only [hn, if_true]
      refine ⟨?_, ?_, by rw [stream_advance, hst2]⟩
      · rw [pos_advance, slice_spec]
        · rw [stream_advance]
          have : (s2.stream.drop s2.stream_position) = c :: r3 := hr
          rw [this]; rfl
        · rw [stream_advance]; simp at hlen; omega
      · rw [rest_advance, hr]; rfl
    · have hw := hword (by simpa using hn)
      simp only [hn]
      have e3 := skip_while_spec (fun ch => !(fun ch => is_whitespace_or_newline ch || ch == 35) ch) s2
      have ep : (fun ch => !(fun ch => is_whitespace_or_newline ch || ch == 35) ch) = wordByte := rfl
      rw [ep] at e3
      simp only [skip_unless, ep]
      rw [hr] at e3
      have hpos : ((c :: r3).takeWhile wordByte).length > 0 := by simp [hw]
      have htl : ((c :: r3).takeWhile wordByte).length ≤ (c :: r3).length :=
        (List.takeWhile_prefix _).length_le
      rw [if_neg (by simp), if_pos (by rw [e3.1]; exact hpos), if_neg (by simp)]
      refine ⟨?_, e3.2.1, by rw [e3.2.2.1, hst2]⟩
      rw [e3.2.2.2, slice_spec]
      · rw [e3.2.2.1]
        have : (s2.stream.drop s2.stream_position) = c :: r3 := hr
        rw [this]
        exact congrArg some (List.prefix_iff_eq_take.mp (List.takeWhile_prefix _)).symm
      · rw [e3.2.2.1]; omega

theorem tokens_dropWhile_blank (r : Bytes) :
    tokens (r.dropWhile is_whitespace) = tokens r := by
  induction r with
  | nil => rfl
  | cons c r ih =>
    by_cases h : is_whitespace c = true
    · simp only [h, List.dropWhile_cons, if_true, ih]
      simp only [is_whitespace] at h
      symm
      apply tokensOf_blank <;> revert h <;> simp only [byteAlphabet] <;> simp <;>
        rintro ((h | h) | h) <;> subst h <;> decide
    · simp [h]

theorem nextTok_tokens (r : Bytes) :
    tokens r = match nextTok r with
      | (none, _) => []
      | (some t, r') => t :: tokens r' := by
  have h1 : tokens r = tokens (let r1 := r.dropWhile is_whitespace
      if r1.head? = some 35 then r1.dropWhile (fun c => !is_newline c) else r1) := by
    rw [← tokens_dropWhile_blank r]
    simp only
    split
    · rename_i h
      generalize r.dropWhile is_whitespace = r1 at h
      cases r1 with
      | nil => simp at h
      | cons c r1 =>
        simp at h; subst h
        have : is_newline 35 = false := by decide
        rw [List.dropWhile_cons]
        simp only [this, Bool.not_false, if_true]
        exact tokensOf_hash byteAlphabet (by decide) (by decide) r1
    · rfl
  rw [h1]
  simp only [nextTok]
  have hhead : ∀ c r3, (let r1 := r.dropWhile is_whitespace
      if r1.head? = some 35 then r1.dropWhile (fun c => !is_newline c) else r1) = c :: r3 →
      is_newline c = false → wordByte c = true := by
    intro c r3 h hn
    simp only at h
    split at h
    · have := dropWhile_head h
      simp [hn] at this
    · rename_i hne
      have hw := dropWhile_head h
      have hc : c ≠ 35 := by
        intro hc; apply hne; rw [h, hc]; rfl
      simp [wordByte, is_whitespace_or_newline, hw, hn, hc]
  generalize (let r1 := r.dropWhile is_whitespace
      if r1.head? = some 35 then r1.dropWhile (fun c => !is_newline c) else r1) = r2 at hhead
  cases r2 with
  | nil => exact tokensOf_nil _
  | cons c r3 =>
    by_cases hn : is_newline c = true
    · simp only [hn, if_true]
      exact tokensOf_eol byteAlphabet hn r3
    · have hw := hhead c r3 rfl (by simpa using hn)
      simp only [hn, if_false, Bool.false_eq_true]
      have := tokensOf_word byteAlphabet ((c :: r3).takeWhile wordByte) ((c :: r3).dropWhile wordByte)
        (by simp [hw])
        (by
          intro d hd
          rw [ordinary_eq]
          exact mem_takeWhile_imp hd)
        (by
          intro d hd
          rw [ordinary_eq]
          cases hq : (c :: r3).dropWhile wordByte with
          | nil => rw [hq] at hd; simp at hd
          | cons e q =>
            rw [hq] at hd
            simp at hd
            subst hd
            exact dropWhile_head hq)
      rw [List.takeWhile_append_dropWhile] at this
      exact this

end Lexer

end Verif
