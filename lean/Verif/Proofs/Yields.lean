import Verif.Proofs.Sim

/-!
# Big-step execution on token lists

`Yields p toks o rest`: run on the tokens `toks`, the parser method `p` ends with
outcome `o` and leaves the tokens `rest`.  Line numbers are folded into the
definition: the line counter advances by the number of newline tokens consumed,
and an error carries the line counter at the moment it is raised.
-/

namespace Verif

/-- An outcome without line number (and without the out-of-fuel marker). -/
inductive Res (K α : Type) where
  | ok (a : α)
  | err (kind : K) (message : Bytes)
  | panic (site : PanicSite)
deriving DecidableEq, Repr

/-- Put the line number back. -/
def Res.at {K α : Type} (line : Nat) : Res K α → Out K α
  | .ok a => .ok a
  | .err k m => .err { line_number := line, kind := k, message := m }
  | .panic x => .panic x

/-- Number of newline tokens. -/
def nls (l : List Tok) : Nat := l.count nl

theorem nls_nil : nls [] = 0 := rfl
theorem nls_cons (t : Tok) (l : List Tok) : nls (t :: l) = nls l + if t = nl then 1 else 0 := by
  simp [nls, List.count_cons]
theorem nls_append (a b : List Tok) : nls (a ++ b) = nls a + nls b := by
  simp [nls, List.count_append]

structure Yields {K α : Type} (p : P (List Tok) K α) (toks : List Tok) (o : Res K α)
    (rest : List Tok) : Prop where
  run : ∀ line, ∃ line', line' + nls rest = line + nls toks ∧
    p ⟨line, toks⟩ = (o.at line', ⟨line', rest⟩)

section
variable {K α β : Type}

theorem Yields.pure (a : α) (toks : List Tok) :
    Yields (Pure.pure a : P (List Tok) K α) toks (.ok a) toks :=
  ⟨fun line => ⟨line, rfl, rfl⟩⟩

theorem Yields.bind {p : P (List Tok) K α} {f : α → P (List Tok) K β} {toks mid rest : List Tok}
    {a : α} {o : Res K β} (h : Yields p toks (.ok a) mid) (h' : Yields (f a) mid o rest) :
    Yields (p >>= f) toks o rest := by
  constructor
  intro line
  obtain ⟨l1, e1, h1⟩ := h.run line
  obtain ⟨l2, e2, h2⟩ := h'.run l1
  refine ⟨l2, by omega, ?_⟩
  show P.bind p f _ = _
  simp only [P.bind, h1, Res.at]
  exact h2

theorem Yields.bind_err {p : P (List Tok) K α} {f : α → P (List Tok) K β} {toks rest : List Tok}
    {k : K} {m : Bytes} (h : Yields p toks (.err k m) rest) :
    Yields (p >>= f) toks (.err k m) rest := by
  constructor
  intro line
  obtain ⟨l1, e1, h1⟩ := h.run line
  refine ⟨l1, e1, ?_⟩
  show P.bind p f _ = _
  simp only [P.bind, h1, Res.at]

theorem Yields.bind_panic {p : P (List Tok) K α} {f : α → P (List Tok) K β} {toks rest : List Tok}
    {x : PanicSite} (h : Yields p toks (.panic x) rest) :
    Yields (p >>= f) toks (.panic x) rest := by
  constructor
  intro line
  obtain ⟨l1, e1, h1⟩ := h.run line
  refine ⟨l1, e1, ?_⟩
  show P.bind p f _ = _
  simp only [P.bind, h1, Res.at]

theorem Yields.attempt_ok {p : P (List Tok) K α} {f : Except (ParseError K) α → P (List Tok) K β}
    {toks mid rest : List Tok} {a : α} {o : Res K β}
    (h : Yields p toks (.ok a) mid) (h' : Yields (f (.ok a)) mid o rest) :
    Yields (P.attempt p >>= f) toks o rest := by
  constructor
  intro line
  obtain ⟨l1, e1, h1⟩ := h.run line
  obtain ⟨l2, e2, h2⟩ := h'.run l1
  refine ⟨l2, by omega, ?_⟩
  show P.bind (P.attempt p) f _ = _
  simp only [P.bind, P.attempt, h1, Res.at]
  exact h2

theorem Yields.attempt_err {p : P (List Tok) K α} {f : Except (ParseError K) α → P (List Tok) K β}
    {toks mid rest : List Tok} {k : K} {m : Bytes} {o : Res K β}
    (h : Yields p toks (.err k m) mid) (h' : ∀ e, Yields (f (.error e)) mid o rest) :
    Yields (P.attempt p >>= f) toks o rest := by
  constructor
  intro line
  obtain ⟨l1, e1, h1⟩ := h.run line
  obtain ⟨l2, e2, h2⟩ := (h' ⟨l1, k, m⟩).run l1
  refine ⟨l2, by omega, ?_⟩
  show P.bind (P.attempt p) f _ = _
  simp only [P.bind, P.attempt, h1, Res.at]
  exact h2

theorem Yields.attempt_panic {p : P (List Tok) K α} {f : Except (ParseError K) α → P (List Tok) K β}
    {toks rest : List Tok} {x : PanicSite} (h : Yields p toks (.panic x) rest) :
    Yields (P.attempt p >>= f) toks (.panic x) rest := by
  constructor
  intro line
  obtain ⟨l1, e1, h1⟩ := h.run line
  refine ⟨l1, e1, ?_⟩
  show P.bind (P.attempt p) f _ = _
  simp only [P.bind, P.attempt, h1, Res.at]

theorem Yields.ofResult_ok (a : α) (toks : List Tok) :
    Yields (P.ofResult (.ok a) : P (List Tok) K α) toks (.ok a) toks :=
  ⟨fun line => ⟨line, rfl, rfl⟩⟩

theorem Yields.error (k : K) (m : Bytes) (toks : List Tok) :
    Yields (P.error k m : P (List Tok) K α) toks (.err k m) toks :=
  ⟨fun line => ⟨line, rfl, rfl⟩⟩

theorem Yields.panic (x : PanicSite) (toks : List Tok) :
    Yields (P.panic x : P (List Tok) K α) toks (.panic x) toks :=
  ⟨fun line => ⟨line, rfl, rfl⟩⟩

theorem Yields.lift_ok (a : α) (toks : List Tok) :
    Yields (P.lift (.ok a) : P (List Tok) K α) toks (.ok a) toks :=
  ⟨fun line => ⟨line, rfl, rfl⟩⟩

theorem Yields.lift_panic (x : PanicSite) (toks : List Tok) :
    Yields (P.lift (.panic x) : P (List Tok) K α) toks (.panic x) toks :=
  ⟨fun line => ⟨line, rfl, rfl⟩⟩

theorem Yields.peek (toks : List Tok) :
    Yields (P.peek : P (List Tok) K _) toks (.ok toks.head?) toks :=
  ⟨fun line => ⟨line, rfl, rfl⟩⟩

theorem Yields.next_nil : Yields (P.next : P (List Tok) K _) [] (.ok none) [] :=
  ⟨fun line => ⟨line, rfl, rfl⟩⟩

theorem Yields.next_cons (t : Tok) (toks : List Tok) :
    Yields (P.next : P (List Tok) K _) (t :: toks) (.ok (some t)) toks :=
  ⟨fun line => ⟨if t = nl then line + 1 else line, by rw [nls_cons]; split <;> omega, rfl⟩⟩

theorem Yields.advance_cons (t : Tok) (toks : List Tok) :
    Yields (P.advance : P (List Tok) K _) (t :: toks) (.ok ()) toks :=
  Yields.bind (Yields.next_cons t toks) (Yields.pure _ _)

/-- Case distinction on a condition known to hold. -/
theorem Yields.ite_pos {c : Prop} [Decidable c] {p q : P (List Tok) K α} {toks o rest} (hc : c)
    (h : Yields p toks o rest) : Yields (if c then p else q) toks o rest := by
  rw [if_pos hc]; exact h

theorem Yields.ite_neg {c : Prop} [Decidable c] {p q : P (List Tok) K α} {toks o rest} (hc : ¬ c)
    (h : Yields q toks o rest) : Yields (if c then p else q) toks o rest := by
  rw [if_neg hc]; exact h

/-- Execution is deterministic. -/
theorem Yields.det {p : P (List Tok) K α} {toks : List Tok} {o o' : Res K α} {rest rest' : List Tok}
    (h : Yields p toks o rest) (h' : Yields p toks o' rest') : o = o' ∧ rest = rest' := by
  obtain ⟨l1, e1, h1⟩ := h.run 0
  obtain ⟨l2, e2, h2⟩ := h'.run 0
  rw [h1] at h2
  simp only [Prod.mk.injEq, PState.mk.injEq] at h2
  refine ⟨?_, h2.2.2⟩
  have h3 := h2.1
  cases o <;> cases o' <;> simp [Res.at] at h3 <;> simp [h3]

/-- Skipping newlines. -/
theorem Yields.skip_zero {fuel : Nat} (toks : List Tok) (hf : toks.length < fuel) :
    Yields (P.skip_zero_or_more_newlines fuel : P (List Tok) K _) toks (.ok ())
      (toks.dropWhile (· = nl)) := by
  induction fuel generalizing toks with
  | zero => omega
  | succ fuel ih =>
    unfold P.skip_zero_or_more_newlines
    refine Yields.bind (Yields.peek toks) ?_
    cases toks with
    | nil => exact Yields.pure _ _
    | cons t toks =>
      by_cases ht : t = nl
      · simp only [List.head?_cons, ht, if_true, List.dropWhile_cons, decide_true]
        exact Yields.bind (Yields.advance_cons _ _) (ih toks (by simpa using hf))
      · simp only [List.head?_cons, ht, if_false, List.dropWhile_cons, decide_false]
        exact Yields.pure _ _

end

end Verif
