import Verif.Model.Width
import Verif.Proofs.Checked
import Verif.Proofs.Numbers
import Verif.Spec.Obj

/-!
# The parsers on a target of any pointer width

On a list of tokens, the parser for pointers of `w` bits and the parser for 64 bits are run
side by side. Under conditions on the numbers in the tokens they end in the same way; the
errors are the same only under a stronger condition `S`.
-/

namespace Verif.Width

open Verif Verif.Obj

/-- The two outcomes agree, the states are the same, no token comes back, the remaining
tokens satisfy `G`, and under `S` errors are the same. -/
inductive ORel {K α β : Type} (S : Prop) (G : Tok → Prop) (n : Nat) (r : β → α → List Tok → Prop) :
    Out K β × PState (List Tok) → Out K α × PState (List Tok) → Prop
  | ok {a b s} : (∀ t ∈ s.lexer, G t) → s.lexer.length ≤ n → r b a s.lexer → ORel S G n r (.ok b, s) (.ok a, s)
  | err {e e' s} : (∀ t ∈ s.lexer, G t) → s.lexer.length ≤ n → (S → e = e') →
      ORel S G n r (.err e, s) (.err e', s)
  | panic {x s} : ORel S G n r (.panic x, s) (.panic x, s)
  | fuel {s} : ORel S G n r (.outOfFuel, s) (.outOfFuel, s)

/-- `q` (at some width) does on `toks` what `p` (at 64 bits) does. -/
def Rel {K α β : Type} (S : Prop) (G : Tok → Prop) (q : P (List Tok) K β) (p : P (List Tok) K α)
    (toks : List Tok) (r : β → α → List Tok → Prop) : Prop :=
  (∀ t ∈ toks, G t) → ∀ line, ORel S G toks.length r (q ⟨line, toks⟩) (p ⟨line, toks⟩)

section
variable {K α β γ δ : Type} {toks : List Tok} {S : Prop} {G : Tok → Prop}

theorem Rel.pure {r : β → α → List Tok → Prop} {b : β} {a : α} (h : r b a toks) :
    Rel S G (Pure.pure b : P _ K _) (Pure.pure a : P _ K _) toks r := fun hg _ => .ok hg (Nat.le_refl _) h

theorem Rel.error {r : β → α → List Tok → Prop} (k : K) (m : Bytes) :
    Rel S G (P.error k m : P _ K β) (P.error k m : P _ K α) toks r :=
  fun hg _ => .err hg (Nat.le_refl _) fun _ => rfl

theorem Rel.error_ne {r : β → α → List Tok → Prop} (k k' : K) (m m' : Bytes) (h : ¬ S) :
    Rel S G (P.error k m : P _ K β) (P.error k' m' : P _ K α) toks r :=
  fun hg _ => .err hg (Nat.le_refl _) fun hs => absurd hs h

theorem Rel.panic {r : β → α → List Tok → Prop} (x : PanicSite) :
    Rel S G (P.panic x : P _ K β) (P.panic x : P _ K α) toks r := fun _ _ => .panic

theorem Rel.outOfFuel {r : β → α → List Tok → Prop} :
    Rel S G (P.outOfFuel : P _ K β) (P.outOfFuel : P _ K α) toks r := fun _ _ => .fuel

theorem Rel.bind {q : P (List Tok) K β} {p : P (List Tok) K α} {g : β → P (List Tok) K δ}
    {f : α → P (List Tok) K γ} {r : β → α → List Tok → Prop} {r' : δ → γ → List Tok → Prop}
    (h : Rel S G q p toks r)
    (hf : ∀ b a rest, rest.length ≤ toks.length → r b a rest → Rel S G (g b) (f a) rest r') :
    Rel S G (q >>= g) (p >>= f) toks r' := by
  intro hg line
  have h1 := h hg line
  show ORel _ _ _ _ (P.bind q g _) (P.bind p f _)
  unfold P.bind
  generalize q ⟨line, toks⟩ = x at h1
  generalize p ⟨line, toks⟩ = y at h1
  cases h1 with
  | @ok a b s hs hl hr =>
    have h2 := hf b a s.lexer hl hr hs s.line_number
    dsimp only
    have es : (⟨s.line_number, s.lexer⟩ : PState (List Tok)) = s := rfl
    rw [es] at h2
    generalize g b s = x at h2
    generalize f a s = y at h2
    cases h2 with
    | ok h0 h3 h4 => exact .ok h0 (Nat.le_trans h3 hl) h4
    | err h0 h3 h4 => exact .err h0 (Nat.le_trans h3 hl) h4
    | panic => exact .panic
    | fuel => exact .fuel
  | err h0 hl h4 => exact .err h0 hl h4
  | panic => exact .panic
  | fuel => exact .fuel

theorem Rel.bind_left {q : P (List Tok) K β} {p : P (List Tok) K α} {g : β → P (List Tok) K δ}
    {r : β → α → List Tok → Prop} {r' : δ → α → List Tok → Prop} (h : Rel S G q p toks r)
    (hf : ∀ b a rest, rest.length ≤ toks.length → r b a rest → Rel S G (g b) (Pure.pure a) rest r') :
    Rel S G (q >>= g) p toks r' := by
  have e : p = p >>= Pure.pure := by
    funext s
    show _ = P.bind _ _ _
    unfold P.bind
    split <;> rename_i h <;> rw [h]
    rfl
  rw [e]
  exact Rel.bind h hf

theorem Rel.attempt {q : P (List Tok) K β} {p : P (List Tok) K α} {r : β → α → List Tok → Prop}
    (h : Rel S G q p toks r) :
    Rel S G (P.attempt q) (P.attempt p) toks fun b a rest =>
      (∃ x y, b = .ok x ∧ a = .ok y ∧ r x y rest) ∨ ∃ e e', b = .error e ∧ a = .error e' := by
  intro hg line
  have h1 := h hg line
  unfold P.attempt
  generalize q ⟨line, toks⟩ = x at h1
  generalize p ⟨line, toks⟩ = y at h1
  cases h1 with
  | ok hs hl hr => exact .ok hs hl (.inl ⟨_, _, rfl, rfl, hr⟩)
  | err hs hl => exact .ok hs hl (.inr ⟨_, _, rfl, rfl⟩)
  | panic => exact .panic
  | fuel => exact .fuel

theorem Rel.mono {q : P (List Tok) K β} {p : P (List Tok) K α} {r r' : β → α → List Tok → Prop}
    (h : Rel S G q p toks r) (hr : ∀ b a rest, rest.length ≤ toks.length → r b a rest → r' b a rest) :
    Rel S G q p toks r' := by
  intro hg line
  have h1 := h hg line
  generalize q ⟨line, toks⟩ = x at h1
  generalize p ⟨line, toks⟩ = y at h1
  cases h1 with
  | ok hs hl h2 => exact .ok hs hl (hr _ _ _ hl h2)
  | err hs hl h2 => exact .err hs hl h2
  | panic => exact .panic
  | fuel => exact .fuel

theorem Rel.ite {c : Prop} [Decidable c] {q q' : P (List Tok) K β} {p p' : P (List Tok) K α}
    {r : β → α → List Tok → Prop} (h : c → Rel S G q p toks r) (h' : ¬ c → Rel S G q' p' toks r) :
    Rel S G (if c then q else q') (if c then p else p') toks r := by
  split
  · exact h ‹_›
  · exact h' ‹_›

theorem Rel.lift {o : Out K α} {r : α → α → List Tok → Prop} (h : ∀ a, o = .ok a → r a a toks) :
    Rel S G (P.lift o) (P.lift o) toks r := by
  intro hg line
  unfold P.lift
  cases o with
  | ok a => exact .ok hg (Nat.le_refl _) (h a rfl)
  | err e => exact .err hg (Nat.le_refl _) fun _ => rfl
  | panic => exact .panic
  | outOfFuel => exact .fuel

theorem Rel.peek : Rel S G (P.peek : P _ K _) P.peek toks fun b a rest => b = a ∧ a = toks.head? ∧ rest = toks :=
  fun hg _ => .ok hg (Nat.le_refl _) ⟨rfl, rfl, rfl⟩

/-- The token read satisfies `G`. -/
theorem Rel.next : Rel S G (P.next : P _ K _) P.next toks fun b a rest =>
    b = a ∧ (a = none ∨ ∃ t, a = some t ∧ G t ∧ rest.length + 1 ≤ toks.length) := by
  intro hg line
  cases toks with
  | nil => exact .ok (by simp [TokStream.next]) (Nat.le_refl _) ⟨rfl, .inl rfl⟩
  | cons t toks =>
    exact .ok (fun u hu => hg u (List.mem_cons_of_mem _ hu)) (Nat.le_succ _)
      ⟨rfl, .inr ⟨t, rfl, hg t (List.mem_cons_self ..), Nat.le_refl _⟩⟩

/-- A relation on token lists, for methods that are the same in both runs. -/
def Same (G : Tok → Prop) (a b : List Tok) : Prop := a = b ∧ ∀ t ∈ a, G t

theorem same_bisim : Bisim (Same G) where
  peek := by
    rintro a _ ⟨rfl, h⟩
    exact ⟨rfl, rfl, h⟩
  next := by
    rintro a _ ⟨rfl, h⟩
    exact ⟨rfl, rfl, fun t ht => h t (List.mem_of_mem_tail ht)⟩

theorem Rel.of_checked {q : P (List Tok) K β} {p : P (List Tok) K α} {r : β → α → List Tok → Prop}
    (h : Checked.Rel q p toks r) (hs : Sim 0 (Same G) p p) : Rel S G q p toks r := by
  intro hg line
  have h1 := h line
  have h2 := (hs.run ⟨line, toks⟩ ⟨line, toks⟩ ⟨rfl, rfl, hg⟩).2
  generalize q ⟨line, toks⟩ = x at h1
  generalize p ⟨line, toks⟩ = y at h1 h2
  cases h1 with
  | ok hl hr =>
    rcases h2 with h2 | ⟨-, -, h2⟩
    · cases h2
    · exact .ok h2 hl hr
  | err hl =>
    rcases h2 with h2 | ⟨-, -, h2⟩
    · cases h2
    · exact .err h2 hl fun _ => rfl
  | panic => exact .panic
  | fuel => exact .fuel

/-- The same, and a bound on the number of tokens. -/
def SameLe (G : Tok → Prop) (n : Nat) (a b : List Tok) : Prop := a = b ∧ (∀ t ∈ a, G t) ∧ a.length ≤ n

theorem sameLe_bisim {n : Nat} : Bisim (SameLe G n) where
  peek := by
    rintro a _ ⟨rfl, h⟩
    exact ⟨rfl, rfl, h⟩
  next := by
    rintro a _ ⟨rfl, h, hl⟩
    refine ⟨rfl, rfl, fun t ht => h t (List.mem_of_mem_tail ht), ?_⟩
    show a.tail.length ≤ n
    rw [List.length_tail]
    omega

theorem Rel.of_sim {p : P (List Tok) K α} (hs : ∀ n, Sim 0 (SameLe G n) p p) :
    Rel S G p p toks fun b a _ => b = a := by
  intro hg line
  have h2 := ((hs toks.length).run ⟨line, toks⟩ ⟨line, toks⟩ ⟨rfl, rfl, hg, Nat.le_refl _⟩).2
  rcases h : p ⟨line, toks⟩ with ⟨o, s⟩
  rw [h] at h2
  cases o with
  | ok a =>
    rcases h2 with h2 | ⟨-, -, h2, h3⟩
    · cases h2
    · exact .ok h2 h3 rfl
  | err e =>
    rcases h2 with h2 | ⟨-, -, h2, h3⟩
    · cases h2
    · exact .err h2 h3 fun _ => rfl
  | panic x => exact .panic
  | outOfFuel => exact .fuel

/-- How the two runs of a program end. -/
theorem Rel.out {q p : P (List Tok) K α} (h : Rel S G q p toks fun b a _ => b = a) (hg : ∀ t ∈ toks, G t)
    (line : Nat) :
    (∀ a, (q ⟨line, toks⟩).1 = .ok a ↔ (p ⟨line, toks⟩).1 = .ok a) ∧
    ((∃ e, (q ⟨line, toks⟩).1 = .err e) ↔ ∃ e, (p ⟨line, toks⟩).1 = .err e) ∧
    (∀ x, (q ⟨line, toks⟩).1 = .panic x ↔ (p ⟨line, toks⟩).1 = .panic x) ∧
    ((q ⟨line, toks⟩).1 = .outOfFuel ↔ (p ⟨line, toks⟩).1 = .outOfFuel) ∧
    (S → q ⟨line, toks⟩ = p ⟨line, toks⟩) := by
  have h1 := h hg line
  generalize q ⟨line, toks⟩ = x at h1
  generalize p ⟨line, toks⟩ = y at h1
  cases h1 with
  | ok _ _ h => subst h; simp
  | err _ _ h => simpa using h
  | panic => simp
  | fuel => simp

theorem bind_assoc {σ : Type} (p : P σ K α) (f : α → P σ K β) (g : β → P σ K γ) :
    (p >>= f) >>= g = p >>= fun a => f a >>= g := by
  funext s
  show P.bind (P.bind p f) g s = P.bind p (fun a => P.bind (f a) g) s
  unfold P.bind
  rcases p s with ⟨_ | _ | _ | _, _⟩ <;> rfl

end

end Verif.Width

namespace Verif

theorem parseIsize_eq (t : Bytes) : parseIsize t = parseIsizeAt 64 t := by
  unfold parseIsize parseIsizeAt
  rfl

theorem parseUsize_eq (t : Bytes) : parseUsize t = parseUsizeAt 64 t := by
  unfold parseUsize parseUsizeAt
  rfl

theorem parseIsizeAt_none {w : Nat} (hw : w ≤ 64) {t : Bytes} (h : parseIsize t = none) :
    parseIsizeAt w t = none := by
  have hp : (2 : Int) ^ (w - 1) ≤ 2 ^ 63 := by
    exact_mod_cast Nat.pow_le_pow_right (by decide) (by omega : w - 1 ≤ 63)
  rw [parseIsize_eq] at h
  unfold parseIsizeAt at h ⊢
  generalize splitSign t = signed at h ⊢
  dsimp only at h ⊢
  split
  · rfl
  · rename_i n hn
    rw [hn] at h
    dsimp only at h
    generalize (if signed.1 = true then -(n : Int) else (n : Int)) = v at h ⊢
    split at h
    · cases h
    · rename_i hb
      rw [if_neg]
      rintro ⟨h1, h2⟩
      apply hb
      simp only [isizeMinAt, isizeMaxAt] at *
      constructor <;> omega

theorem parseIsizeAt_some {w : Nat} {t : Bytes} {k : Int} (h : parseIsize t = some k) :
    parseIsizeAt w t = if isizeMinAt w ≤ k ∧ k ≤ isizeMaxAt w then some k else none := by
  rw [parseIsize_eq] at h
  unfold parseIsizeAt at h ⊢
  generalize splitSign t = signed at h ⊢
  dsimp only at h ⊢
  split at h
  · cases h
  · rename_i n hn
    generalize (if signed.1 = true then -(n : Int) else (n : Int)) = v at h ⊢
    split at h
    · injection h with h
      rw [h]
    · cases h

theorem parseUsizeAt_none {w : Nat} (hw : w ≤ 64) {t : Bytes} (h : parseUsize t = none) :
    parseUsizeAt w t = none := by
  have hp : (2 : Nat) ^ w ≤ 2 ^ 64 := Nat.pow_le_pow_right (by decide) hw
  rw [parseUsize_eq] at h
  unfold parseUsizeAt at h ⊢
  dsimp only at h ⊢
  split
  · rfl
  · rename_i n hn
    rw [hn] at h
    dsimp only at h
    split at h
    · cases h
    · rename_i hb
      rw [if_neg]
      intro h1
      apply hb
      simp only [usizeMaxAt] at *
      omega

theorem parseUsizeAt_some {w : Nat} {t : Bytes} {k : Nat} (h : parseUsize t = some k) :
    parseUsizeAt w t = if k ≤ usizeMaxAt w then some k else none := by
  rw [parseUsize_eq] at h
  unfold parseUsizeAt at h ⊢
  dsimp only at h ⊢
  split at h
  · cases h
  · rename_i n hn
    split at h
    · injection h with h
      rw [h]
    · cases h

theorem parseIsize_no_slash {t : Bytes} {k : Int} (h : parseIsize t = some k) : ∀ c ∈ t, c ≠ 47 := by
  have key : ∀ ds : Bytes, parseDigits ds ≠ none → ∀ c ∈ ds, c ≠ 47 := by
    intro ds h c hc e
    subst e
    unfold parseDigits at h
    split at h
    · rename_i h1
      have := List.all_eq_true.mp h1.2 _ hc
      exact absurd this (by decide)
    · exact h rfl
  unfold parseIsize at h
  dsimp only at h
  split at h
  · cases h
  · rename_i n hn
    have := key _ (by rw [hn]; simp)
    split at this
    · intro c hc
      rcases List.mem_cons.mp hc with rfl | hc
      · decide
      · exact this c hc
    · intro c hc
      rcases List.mem_cons.mp hc with rfl | hc
      · decide
      · exact this c hc
    · exact this

theorem wrapIsizeAt_id {w : Nat} (hw : 0 < w) {x : Int} (h1 : isizeMinAt w ≤ x) (h2 : x ≤ isizeMaxAt w) :
    wrapIsizeAt w x = x := by
  obtain ⟨v, rfl⟩ : ∃ v, w = v + 1 := ⟨w - 1, by omega⟩
  simp only [isizeMinAt, isizeMaxAt, wrapIsizeAt, Nat.add_sub_cancel] at *
  rw [Int.emod_eq_of_lt (by omega) (by rw [Int.pow_succ]; omega)]
  omega

end Verif
