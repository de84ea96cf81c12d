import Verif.Model.Parser
import Verif.Proofs.Lexer

/-!
# Simulation between two runs of the same parser

Two runs are related when their token sources are bisimilar, when the second has
at least as much loop fuel as the first, and when the line counter of the first is
ahead by a constant `d`.  Unless the first run is out of fuel, both end in the
same way, with error lines shifted by `d`.
-/

namespace Verif

/-- A relation on token sources preserved by `peek` and `next`. -/
structure Bisim {σ₁ σ₂ : Type} [TokStream σ₁] [TokStream σ₂] (R : σ₁ → σ₂ → Prop) : Prop where
  peek : ∀ a b, R a b → (TokStream.peek a).1 = (TokStream.peek b).1 ∧
    R (TokStream.peek a).2 (TokStream.peek b).2
  next : ∀ a b, R a b → (TokStream.next a).1 = (TokStream.next b).1 ∧
    R (TokStream.next a).2 (TokStream.next b).2

/-- A plain list of tokens as a token source. -/
instance : TokStream (List Tok) where
  peek l := (l.head?, l)
  next l := (l.head?, l.tail)

/-- Outcomes agree, the lines of errors shifted by `d`. -/
def OutRel {K α : Type} (d : Nat) : Out K α → Out K α → Prop
  | .outOfFuel, _ => True
  | .ok a, .ok b => a = b
  | .err e, .err e' => e = { e' with line_number := e'.line_number + d }
  | .panic x, .panic y => x = y
  | _, _ => False

/-- States are related. -/
def StRel {σ₁ σ₂ : Type} (d : Nat) (R : σ₁ → σ₂ → Prop) (s₁ : PState σ₁) (s₂ : PState σ₂) : Prop :=
  s₁.line_number = s₂.line_number + d ∧ R s₁.lexer s₂.lexer

/-- Two parser methods simulate each other. -/
structure Sim {σ₁ σ₂ K α : Type} (d : Nat) (R : σ₁ → σ₂ → Prop) (p : P σ₁ K α) (q : P σ₂ K α) :
    Prop where
  run : ∀ s₁ s₂, StRel d R s₁ s₂ →
    OutRel d (p s₁).1 (q s₂).1 ∧ ((p s₁).1 = .outOfFuel ∨ StRel d R (p s₁).2 (q s₂).2)

section
variable {σ₁ σ₂ K α β : Type} {d : Nat} {R : σ₁ → σ₂ → Prop}

theorem Sim.pure (a : α) : Sim d R (Pure.pure a : P σ₁ K α) (Pure.pure a : P σ₂ K α) :=
  ⟨fun _ _ h => ⟨rfl, .inr h⟩⟩

theorem Sim.bind {p : P σ₁ K α} {q : P σ₂ K α} {f : α → P σ₁ K β} {g : α → P σ₂ K β}
    (h : Sim d R p q) (hf : ∀ a, Sim d R (f a) (g a)) : Sim d R (p >>= f) (q >>= g) := by
  constructor
  intro s₁ s₂ hs
  have h1 := h.run s₁ s₂ hs
  show OutRel d (P.bind p f s₁).1 (P.bind q g s₂).1 ∧ ((P.bind p f s₁).1 = _ ∨
    StRel d R (P.bind p f s₁).2 (P.bind q g s₂).2)
  simp only [P.bind]
  rcases hp : p s₁ with ⟨o₁, t₁⟩
  rcases hq : q s₂ with ⟨o₂, t₂⟩
  rw [hp, hq] at h1
  cases o₁ <;> cases o₂ <;> simp_all [OutRel]
  exact (hf _).run _ _ h1.2

theorem Sim.ite {c : Prop} [Decidable c] {p p' : P σ₁ K α} {q q' : P σ₂ K α}
    (h : Sim d R p q) (h' : Sim d R p' q') :
    Sim d R (if c then p else p') (if c then q else q') := by
  split
  · exact h
  · exact h'

theorem Sim.panic (x : PanicSite) : Sim d R (P.panic x : P σ₁ K α) (P.panic x : P σ₂ K α) :=
  ⟨fun _ _ h => ⟨rfl, .inr h⟩⟩

theorem Sim.outOfFuel (q : P σ₂ K α) : Sim d R (P.outOfFuel : P σ₁ K α) q :=
  ⟨fun _ _ _ => ⟨trivial, .inl rfl⟩⟩

/-- An outcome whose error, if any, is not there. -/
theorem Sim.lift_ok {o : Out K α} (ho : ∀ e, o ≠ .err e) :
    Sim d R (P.lift o : P σ₁ K α) (P.lift o : P σ₂ K α) := by
  constructor
  intro s₁ s₂ h
  refine ⟨?_, .inr h⟩
  show OutRel d o o
  cases o <;> simp_all [OutRel]

theorem Sim.error (k : K) (m : Bytes) : Sim d R (P.error k m : P σ₁ K α) (P.error k m : P σ₂ K α) := by
  constructor
  intro s₁ s₂ h
  refine ⟨?_, .inr h⟩
  show OutRel d (.err _) (.err _)
  simp [OutRel, h.1]

/-- Keeping a `Result` as a value: the two values are related, not equal. -/
theorem Sim.attempt_bind {p : P σ₁ K α} {q : P σ₂ K α}
    {f : Except (ParseError K) α → P σ₁ K β} {g : Except (ParseError K) α → P σ₂ K β}
    (h : Sim d R p q) (hok : ∀ a, Sim d R (f (.ok a)) (g (.ok a)))
    (herr : ∀ e : ParseError K, Sim d R (f (.error { e with line_number := e.line_number + d }))
      (g (.error e))) :
    Sim d R (P.attempt p >>= f) (P.attempt q >>= g) := by
  constructor
  intro s₁ s₂ hs
  have h1 := h.run s₁ s₂ hs
  show OutRel d (P.bind (P.attempt p) f s₁).1 (P.bind (P.attempt q) g s₂).1 ∧
    ((P.bind (P.attempt p) f s₁).1 = _ ∨
      StRel d R (P.bind (P.attempt p) f s₁).2 (P.bind (P.attempt q) g s₂).2)
  simp only [P.bind, P.attempt]
  rcases hp : p s₁ with ⟨o₁, t₁⟩
  rcases hq : q s₂ with ⟨o₂, t₂⟩
  rw [hp, hq] at h1
  cases o₁ <;> cases o₂ <;> simp_all [OutRel]
  · exact (hok _).run _ _ h1.2
  · exact (herr _).run _ _ h1.2

theorem Sim.ofResult_ok (a : α) :
    Sim d R (P.ofResult (.ok a) : P σ₁ K α) (P.ofResult (.ok a) : P σ₂ K α) :=
  ⟨fun _ _ h => ⟨rfl, .inr h⟩⟩

theorem Sim.ofResult_error (e : ParseError K) :
    Sim d R (P.ofResult (.error { e with line_number := e.line_number + d }) : P σ₁ K α)
      (P.ofResult (.error e) : P σ₂ K α) :=
  ⟨fun _ _ h => ⟨rfl, .inr h⟩⟩

variable [TokStream σ₁] [TokStream σ₂]

theorem Sim.peek (hR : Bisim R) : Sim d R (P.peek : P σ₁ K _) (P.peek : P σ₂ K _) := by
  constructor
  intro s₁ s₂ h
  have := hR.peek _ _ h.2
  exact ⟨this.1, .inr ⟨h.1, this.2⟩⟩

theorem Sim.next (hR : Bisim R) : Sim d R (P.next : P σ₁ K _) (P.next : P σ₂ K _) := by
  constructor
  intro s₁ s₂ h
  have := hR.next _ _ h.2
  refine ⟨this.1, .inr ⟨?_, this.2⟩⟩
  simp only [P.next]
  rw [this.1, h.1]
  cases (TokStream.next s₂.lexer).1 with
  | none => rfl
  | some t => by_cases ht : t = nl <;> simp only [ht] <;> simp <;> omega

end

/-- Extensible list of simulation lemmas. -/
syntax "sim_step" : tactic
macro_rules | `(tactic| sim_step) => `(tactic| exact Sim.pure _)
macro_rules | `(tactic| sim_step) => `(tactic| exact Sim.panic _)
macro_rules | `(tactic| sim_step) => `(tactic| exact Sim.error _ _)
macro_rules | `(tactic| sim_step) => `(tactic| exact Sim.outOfFuel _)
macro_rules | `(tactic| sim_step) => `(tactic| exact Sim.ofResult_ok _)
macro_rules | `(tactic| sim_step) => `(tactic| exact Sim.ofResult_error _)
macro_rules | `(tactic| sim_step) => `(tactic| exact Sim.peek ‹_›)
macro_rules | `(tactic| sim_step) => `(tactic| exact Sim.next ‹_›)

/-- Prove a simulation by following the code. -/
macro "sim" : tactic => `(tactic|
  repeat' (first
    | with_reducible assumption
    | intro _
    | with_reducible refine Sim.attempt_bind ?_ ?_ ?_
    | with_reducible refine Sim.bind ?_ ?_
    | with_reducible refine Sim.ite ?_ ?_
    | with_reducible sim_step
    | split))

section
variable {σ₁ σ₂ K : Type} [TokStream σ₁] [TokStream σ₂] {d : Nat} {R : σ₁ → σ₂ → Prop}

theorem sim_advance (hR : Bisim R) : Sim d R (P.advance : P σ₁ K _) (P.advance : P σ₂ K _) := by
  unfold P.advance
  sim
macro_rules | `(tactic| sim_step) => `(tactic| exact sim_advance ‹_›)

theorem sim_skip_zero (hR : Bisim R) {n m : Nat} (h : n ≤ m) :
    Sim d R (P.skip_zero_or_more_newlines n : P σ₁ K _) (P.skip_zero_or_more_newlines m : P σ₂ K _) := by
  induction n generalizing m with
  | zero => exact Sim.outOfFuel _
  | succ n ih =>
    obtain ⟨m, rfl⟩ : ∃ k, m = k + 1 := ⟨m - 1, by omega⟩
    have ih := ih (m := m) (by omega)
    unfold P.skip_zero_or_more_newlines
    sim
macro_rules | `(tactic| sim_step) => `(tactic| exact sim_skip_zero ‹_› ‹_›)

end

/-! ## The lexer against the token list -/

/-- The peekable lexer holds exactly the tokens `ts`. -/
def Holds (s : PeekableLexer) (ts : List Tok) : Prop :=
  match s.cache with
  | none => Spec.tokens s.inner.rest = ts
  | some none => ts = [] ∧ Spec.tokens s.inner.rest = []
  | some (some t) => ts = t :: Spec.tokens s.inner.rest

theorem tokens_nil : Spec.tokens [] = [] := Spec.tokensOf_nil _

theorem next_token_tokens (l : Lexer) :
    l.next_token.1 = (Spec.tokens l.rest).head? ∧
    Spec.tokens l.next_token.2.rest = (Spec.tokens l.rest).tail := by
  have h1 := Lexer.next_token_spec l
  have h2 := Lexer.nextTok_tokens l.rest
  rw [h1.1, h1.2.1]
  rcases h : Lexer.nextTok l.rest with ⟨o, r'⟩
  rw [h] at h2
  cases o with
  | some t => simp only at h2; rw [h2]; simp
  | none =>
    simp only at h2
    rw [h2]
    refine ⟨rfl, ?_⟩
    have : r' = [] := by
      simp only [Lexer.nextTok] at h
      split at h
      · simp at h; exact h
      · split at h <;> simp at h
    rw [this]; exact tokens_nil

theorem holds_bisim : Bisim Holds where
  peek := by
    intro a b h
    rcases a with ⟨inner, cache⟩
    show (PeekableLexer.peek _).1 = b.head? ∧ Holds (PeekableLexer.peek _).2 b
    rcases cache with _ | _ | t
    · have := next_token_tokens inner
      simp only [Holds] at h
      subst h
      simp only [PeekableLexer.peek]
      refine ⟨this.1, ?_⟩
      simp only [Holds]
      cases ht : Spec.tokens inner.rest with
      | nil => rw [ht] at this; simp at this; simp [this]
      | cons t ts => rw [ht] at this; simp at this; simp [this]
    · simp only [Holds] at h
      simp [PeekableLexer.peek, h.1, Holds, h.2]
    · simp only [Holds] at h
      simp [PeekableLexer.peek, h, Holds]
  next := by
    intro a b h
    rcases a with ⟨inner, cache⟩
    show (PeekableLexer.next_token _).1 = b.head? ∧ Holds (PeekableLexer.next_token _).2 b.tail
    rcases cache with _ | _ | t
    · have := next_token_tokens inner
      simp only [Holds] at h
      subst h
      simpa [PeekableLexer.next_token, Holds] using this
    · simp only [Holds] at h
      simp [PeekableLexer.next_token, h.1, Holds, h.2]
    · simp only [Holds] at h
      simp [PeekableLexer.next_token, h, Holds]

theorem holds_new (input : Bytes) :
    Holds (PeekableLexer.new (Lexer.new input)) (Spec.tokens input) := by
  simp [Holds, PeekableLexer.new, Lexer.new, Lexer.rest]

end Verif
