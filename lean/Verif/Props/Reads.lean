import Verif.Model.Reads
import Verif.Props.Cost

/-!
# Property C85

How often the lexer looks at a byte.
-/

namespace Verif.Reads

open Verif

namespace Lexer

theorem skip_while_loop_spec (p : UInt8 → Bool) (fuel fuel' k : Nat) (s : Lexer) (h : s.lexer.rest.length < fuel)
    (h' : s.lexer.rest.length ≤ fuel') :
    (skip_while_loop p fuel k s).1 = (Verif.Lexer.skip_while_loop p fuel' k s.lexer).1 ∧
    (skip_while_loop p fuel k s).2.lexer = (Verif.Lexer.skip_while_loop p fuel' k s.lexer).2 ∧
    (skip_while_loop p fuel k s).2.reads = s.reads + 2 * (s.lexer.rest.takeWhile p).length + 1 := by
  induction fuel generalizing fuel' k s with
  | zero => omega
  | succ fuel ih =>
    simp only [skip_while_loop, peek, Verif.Lexer.peek_eq]
    cases hr : s.lexer.rest with
    | nil =>
      cases fuel' <;> simp [Verif.Lexer.skip_while_loop, Verif.Lexer.peek_eq, hr]
    | cons c r =>
      rw [hr, List.length_cons] at h h'
      obtain ⟨f, rfl⟩ : ∃ f, fuel' = f + 1 := ⟨fuel' - 1, by omega⟩
      simp only [Verif.Lexer.skip_while_loop, Verif.Lexer.peek_eq, hr, List.head?_cons]
      by_cases hp : p c = true
      · have e : s.lexer.advance.rest = r := by rw [Verif.Lexer.rest_advance, hr]; rfl
        have := ih f (k + 1) (advance { s with reads := s.reads + 1 }) (by simp only [advance]; rw [e]; omega)
          (by simp only [advance]; rw [e]; omega)
        simp only [advance, peek, e] at this
        simp only [hp, if_true, List.takeWhile_cons, List.length_cons]
        simp only [advance, peek]
        refine ⟨this.1, this.2.1, ?_⟩
        rw [this.2.2]
        omega
      · simp [hp]

theorem skip_while_spec (p : UInt8 → Bool) (s : Lexer) :
    (s.skip_while p).1 = (s.lexer.skip_while p).1 ∧ (s.skip_while p).2.lexer = (s.lexer.skip_while p).2 ∧
    (s.skip_while p).2.reads + 2 * s.lexer.stream_position =
      s.reads + 2 * (s.lexer.skip_while p).2.stream_position + 1 ∧
    s.lexer.stream_position ≤ (s.lexer.skip_while p).2.stream_position := by
  have h := skip_while_loop_spec p (s.lexer.stream.length - s.lexer.stream_position + 1)
    (s.lexer.stream.length - s.lexer.stream_position) 0 s (by simp [Verif.Lexer.rest]) (by simp [Verif.Lexer.rest])
  have h' := Verif.Lexer.skip_while_spec p s.lexer
  refine ⟨h.1, h.2.1, ?_, by rw [h'.2.2.2]; omega⟩
  rw [h'.2.2.2]
  unfold skip_while
  rw [h.2.2]
  omega

/-- A token costs two looks at every byte consumed, and four. -/
theorem next_token_spec (s : Lexer) :
    s.next_token.1 = s.lexer.next_token.1 ∧ s.next_token.2.lexer = s.lexer.next_token.2 ∧
    s.next_token.2.reads + 2 * s.lexer.stream_position ≤
      s.reads + 2 * s.lexer.next_token.2.stream_position + 4 := by
  simp only [next_token, Verif.Lexer.next_token]
  -- blank space
  have w := skip_while_spec is_whitespace s
  change s.skip_whitespace.1 = s.lexer.skip_whitespace.1 ∧ s.skip_whitespace.2.lexer = s.lexer.skip_whitespace.2 ∧
    s.skip_whitespace.2.reads + _ = _ + 2 * s.lexer.skip_whitespace.2.stream_position + 1 ∧
    _ ≤ s.lexer.skip_whitespace.2.stream_position at w
  obtain ⟨-, w1, w2, w3⟩ := w
  generalize s.skip_whitespace.2 = s1 at *
  rw [← w1] at w2 w3 ⊢
  -- a comment
  have c : s1.skip_comment.2.lexer = s1.lexer.skip_comment.2 ∧
      s1.lexer.stream_position ≤ s1.lexer.skip_comment.2.stream_position ∧
      (s1.skip_comment.2.reads + 2 * s1.lexer.stream_position ≤
          s1.reads + 2 * s1.lexer.skip_comment.2.stream_position + 1 ∨
        s1.skip_comment.2.reads + 2 * s1.lexer.stream_position ≤
          s1.reads + 2 * s1.lexer.skip_comment.2.stream_position + 2 ∧
        ∀ ch ∈ s1.lexer.skip_comment.2.peek, is_newline ch = true) := by
    simp only [skip_comment, Verif.Lexer.skip_comment, peek]
    cases hp : s1.lexer.peek with
    | none => exact ⟨rfl, Nat.le_refl _, .inl (by simp only; omega)⟩
    | some ch =>
      by_cases hc : ch = 35
      · simp only [hc, if_true, skip_unless, Verif.Lexer.skip_unless]
        obtain ⟨-, a, b, c⟩ := skip_while_spec (fun ch => !is_newline ch) { s1 with reads := s1.reads + 1 }
        refine ⟨a, c, .inr ⟨by simp only at b ⊢; omega, fun ch hch => ?_⟩⟩
        simpa using Verif.Lexer.skip_while_exit (fun ch => !is_newline ch) s1.lexer ch hch
      · simp only [hc, if_false]
        exact ⟨trivial, Nat.le_refl _, .inl (by omega)⟩
  obtain ⟨c1, c2, c3⟩ := c
  generalize s1.skip_comment.2 = s2 at *
  rw [← c1] at c2 c3 ⊢
  simp only [peek]
  cases hp : s2.lexer.peek with
  | none =>
    refine ⟨rfl, rfl, ?_⟩
    simp only
    omega
  | some ch =>
    by_cases hn : is_newline ch = true
    · simp only [hn, if_true, advance, peek]
      refine ⟨trivial, trivial, ?_⟩
      rw [Verif.Lexer.pos_advance]
      omega
    · simp only [hn, Bool.false_eq_true, if_false, skip_unless, Verif.Lexer.skip_unless]
      obtain ⟨a, b, c, d⟩ := skip_while_spec
        (fun ch => !(fun ch => is_whitespace_or_newline ch || ch == 35) ch) { s2 with reads := s2.reads + 1 }
      simp only at a b c d
      have c3 : s2.reads + 2 * s1.lexer.stream_position ≤ s1.reads + 2 * s2.lexer.stream_position + 1 := by
        rcases c3 with h | ⟨-, h⟩
        · exact h
        · exact absurd (h ch (by rw [hp]; rfl)) hn
      by_cases hz : (Verif.Lexer.skip_while (fun ch => !(is_whitespace_or_newline ch || ch == 35)) s2.lexer).1 > 0
      · simp only [a, b, hz, if_true, true_and]
        omega
      · simp only [a, b, hz, if_false, true_and]
        omega

end Lexer

theorem next_token_le (s : Verif.Lexer) (h : s.stream_position ≤ s.stream.length) :
    s.next_token.2.stream_position ≤ s.next_token.2.stream.length := by
  have key : ∀ (p : UInt8 → Bool) (s : Verif.Lexer), s.stream_position ≤ s.stream.length →
      (s.skip_while p).2.stream_position ≤ (s.skip_while p).2.stream.length := by
    intro p s hs
    obtain ⟨-, -, e1, e2⟩ := Verif.Lexer.skip_while_spec p s
    have := (List.takeWhile_prefix p (l := s.rest)).length_le
    rw [show s.rest.length = s.stream.length - s.stream_position by simp [Verif.Lexer.rest]] at this
    rw [e1, e2]
    omega
  have h1 : s.skip_whitespace.2.stream_position ≤ s.skip_whitespace.2.stream.length := key _ _ h
  have h2 : s.skip_whitespace.2.skip_comment.2.stream_position ≤ s.skip_whitespace.2.skip_comment.2.stream.length := by
    simp only [Verif.Lexer.skip_comment]
    split
    · split
      · exact key _ _ h1
      · exact h1
    · exact h1
  simp only [Verif.Lexer.next_token]
  generalize s.skip_whitespace.2.skip_comment.2 = s2 at h2
  split
  · rename_i ch hp
    split
    · have : s2.stream_position < s2.stream.length := by
        by_contra hc
        rw [Verif.Lexer.peek, List.getElem?_eq_none (by omega)] at hp
        cases hp
      exact this
    · simp only [Verif.Lexer.skip_unless]
      by_cases hz : (Verif.Lexer.skip_while (fun ch => !(is_whitespace_or_newline ch || ch == 35)) s2).1 > 0
      · simp only [hz, if_true]
        exact key _ _ h2
      · simp only [hz, if_false]
        exact key _ _ h2
  · exact h2

/-- The lexer that counts bytes does the same as the one that counts calls, and makes at most four looks for
each call and two for each byte. -/
def Tracks (len : Nat) (a : PeekableLexer) (b : CallCount Verif.PeekableLexer) : Prop :=
  a.inner.lexer = b.src.inner ∧ a.cache = b.src.cache ∧
    a.inner.reads ≤ 2 * b.src.inner.stream_position + 4 * b.calls ∧
    b.src.inner.stream_position ≤ b.src.inner.stream.length ∧ b.src.inner.stream.length = len

theorem tracks_bisim (len : Nat) : Bisim (Tracks len) where
  peek a b h := by
    obtain ⟨h1, h2, h3, h4, h5⟩ := h
    have sp := Lexer.next_token_spec a.inner
    have le := next_token_le _ h4
    have st := (Verif.Lexer.next_token_spec b.src.inner).2.2
    simp only [TokStream.peek, PeekableLexer.peek, Verif.PeekableLexer.peek, ← h2]
    cases hc : a.cache with
    | some t => exact ⟨rfl, h1, h2, by simp only; omega, h4, h5⟩
    | none =>
      rw [h1] at sp
      simp only
      refine ⟨sp.1, sp.2.1, by simp only [sp.1], ?_, le, by simp only; rw [st, h5]⟩
      simp only
      omega
  next a b h := by
    obtain ⟨h1, h2, h3, h4, h5⟩ := h
    have sp := Lexer.next_token_spec a.inner
    have le := next_token_le _ h4
    have st := (Verif.Lexer.next_token_spec b.src.inner).2.2
    simp only [TokStream.next, PeekableLexer.next_token, Verif.PeekableLexer.next_token, ← h2]
    cases hc : a.cache with
    | some t => exact ⟨rfl, h1, rfl, by simp only; omega, h4, h5⟩
    | none =>
      rw [h1] at sp
      simp only
      refine ⟨sp.1, sp.2.1, rfl, ?_, le, by simp only; rw [st, h5]⟩
      simp only
      omega

theorem tracks_new (input : Bytes) :
    Tracks input.length (PeekableLexer.new input) ⟨Verif.PeekableLexer.new (Verif.Lexer.new input), 0⟩ :=
  ⟨rfl, rfl, Nat.zero_le _, Nat.zero_le _, rfl⟩

end Verif.Reads

namespace Verif.Props

open Verif Verif.Spec

variable {F : Type} [FloatSem F] {cfg : Obj.Cfg} {input : Bytes}

/-- **C85** However it ends, `obj::parse` looks at bytes of the text at most 34 times as often as the text has
bytes, and 48 times more. -/
theorem C85_reads_obj (hlen : input.length < 2 ^ 63) : ∃ n,
    n ≤ 2 * input.length + 32 * (tokens input).length + 48 ∧ n ≤ 34 * input.length + 48 ∧
    ∃ s, (Obj.parse_objset cfg (input.length + 1) ⟨1, Reads.PeekableLexer.new input⟩ : Out _ (Obj.ObjectSet F) × _) =
      (Obj.parse cfg input, s) ∧ s.lexer.inner.reads = n := by
  obtain ⟨n, hn, s, hs, rfl⟩ := C72_calls_obj (F := F) (cfg := cfg) hlen
  have hne : (Obj.parse cfg input : Out _ (Obj.ObjectSet F)) ≠ .outOfFuel := Obj.parse_not_outOfFuel hlen
  have h := (Obj.sim_parse_objset (F := F) (d := 0) (Reads.tracks_bisim input.length).symm cfg
    (Nat.le_refl (input.length + 1))).run (meter input) ⟨1, Reads.PeekableLexer.new input⟩ ⟨rfl, Reads.tracks_new input⟩
  rw [hs] at h
  rcases hr : Obj.parse_objset (F := F) cfg (input.length + 1) ⟨1, Reads.PeekableLexer.new input⟩ with ⟨o, t⟩
  rw [hr] at h
  have e := outRel_zero h.1 hne
  rcases h.2 with h | ⟨-, -, -, h1, h2, h3⟩
  · exact absurd h hne
  · have ht := length_tokens_le input
    simp only at h1 h2 h3
    exact ⟨_, by omega, by omega, t, Prod.ext e.symm rfl, rfl⟩

/-- **C85** The same for `mtl::parse`. -/
theorem C85_reads_mtl : ∃ n,
    n ≤ 2 * input.length + 32 * (tokens input).length + 48 ∧ n ≤ 34 * input.length + 48 ∧
    ∃ s, (Mtl.parse_mtlset (input.length + 1) ⟨1, Reads.PeekableLexer.new input⟩ : Out _ (Mtl.MaterialSet F) × _) =
      (Mtl.parse input, s) ∧ s.lexer.inner.reads = n := by
  obtain ⟨n, hn, s, hs, rfl⟩ := C72_calls_mtl (F := F) (input := input)
  have hne : (Mtl.parse input : Out _ (Mtl.MaterialSet F)) ≠ .outOfFuel := (C07_terminates_mtl _ (Nat.le_refl _)).2
  have h := (Mtl.sim_parse_mtlset (F := F) (d := 0) (Reads.tracks_bisim input.length).symm
    (Nat.le_refl (input.length + 1))).run (meter input) ⟨1, Reads.PeekableLexer.new input⟩ ⟨rfl, Reads.tracks_new input⟩
  rw [hs] at h
  rcases hr : Mtl.parse_mtlset (F := F) (input.length + 1) ⟨1, Reads.PeekableLexer.new input⟩ with ⟨o, t⟩
  rw [hr] at h
  have e := outRel_zero h.1 hne
  rcases h.2 with h | ⟨-, -, -, h1, h2, h3⟩
  · exact absurd h hne
  · have ht := length_tokens_le input
    simp only at h1 h2 h3
    exact ⟨_, by omega, by omega, t, Prod.ext e.symm rfl, rfl⟩

/-- The sample has 206 bytes and 86 tokens, and its bytes are looked at 714 times. -/
example : sample.length = 206 ∧ (tokens sample).length = 86 ∧
    (Obj.parse_objset debug 1000 ⟨1, Reads.PeekableLexer.new sample⟩ : Out _ (Obj.ObjectSet Bytes) × _).2.lexer.inner.reads = 714 := by
  decide +kernel

end Verif.Props
