import Mathlib.Computability.MyhillNerode
import Mathlib.Data.Fintype.Pigeonhole
import Mathlib.Data.Finite.Sum
import Mathlib.Data.Finite.Prod
import Mathlib.Data.Set.Finite.List
import Verif.Props.Errors
import Verif.Props.Language

/-!
# Property C96: which texts finite memory can judge

Regular languages are those of Mathlib (`Language.IsRegular`: recognised by a deterministic finite
automaton that reads the text byte by byte).
-/

namespace Verif.Regular

open Verif Verif.Spec

/-! ## Functions computed by finite automata -/

/-- The function can be computed by reading its argument once with finitely many states. -/
def Automatic {α C : Type} (f : List α → C) : Prop :=
  ∃ (S : Type) (_ : Finite S) (start : S) (step : S → α → S) (out : S → C), ∀ w, f w = out (w.foldl step start)

section
variable {α β C D : Type}

theorem automatic_of_fold {S : Type} [Finite S] {f : List α → C} (start : S) (step : S → α → S) (out : S → C)
    (h : ∀ w, f w = out (w.foldl step start)) : Automatic f := ⟨S, inferInstance, start, step, out, h⟩

theorem Automatic.comp {f : List α → C} (h : Automatic f) (g : C → D) : Automatic fun w => g (f w) := by
  obtain ⟨S, hS, start, step, out, h⟩ := h
  exact ⟨S, hS, start, step, fun s => g (out s), fun w => congrArg g (h w)⟩

theorem Automatic.prod {f : List α → C} {g : List α → D} (hf : Automatic f) (hg : Automatic g) :
    Automatic fun w => (f w, g w) := by
  obtain ⟨S, hS, s0, step, out, hf⟩ := hf
  obtain ⟨T, hT, t0, step', out', hg⟩ := hg
  refine automatic_of_fold (S := S × T) (s0, t0) (fun p a => (step p.1 a, step' p.2 a))
    (fun p => (out p.1, out' p.2)) fun w => ?_
  have : ∀ (w : List α) (s : S) (t : T), w.foldl (fun (p : S × T) a => (step p.1 a, step' p.2 a)) (s, t) =
      (w.foldl step s, w.foldl step' t) := by
    intro w
    induction w with
    | nil => intros; rfl
    | cons a w ih => intro s t; exact ih _ _
  rw [this, hf, hg]

/-- Reading a text through a map of its symbols. -/
theorem Automatic.map {f : List β → C} (h : Automatic f) (m : α → β) : Automatic fun w => f (w.map m) := by
  obtain ⟨S, hS, start, step, out, h⟩ := h
  exact ⟨S, hS, start, fun s a => step s (m a), out, fun w => (h _).trans (by rw [List.foldl_map])⟩

/-- Doing something else if the first symbol is special. -/
theorem Automatic.skip {f : List α → C} (h : Automatic f) (p : α → Bool) :
    Automatic fun w => match w with | [] => f [] | a :: r => if p a then f r else f (a :: r) := by
  obtain ⟨S, hS, start, step, out, h⟩ := h
  refine automatic_of_fold (S := Option S) none
    (fun s a => some (match s with | none => if p a then start else step start a | some s => step s a))
    (fun s => match s with | none => out start | some s => out s) fun w => ?_
  have key : ∀ (w : List α) (s : S), w.foldl (fun (s : Option S) a =>
      some (match s with | none => if p a then start else step start a | some s => step s a)) (some s) =
        some (w.foldl step s) := by
    intro w
    induction w with
    | nil => intros; rfl
    | cons a w ih => intro s; exact ih _
  cases w with
  | nil => exact h []
  | cons a r =>
    simp only [List.foldl_cons, key]
    by_cases hp : p a = true
    · simp only [hp, if_true, h]
    · simp only [hp, h, Bool.false_eq_true, if_false, List.foldl_cons]

/-- Comparing with a fixed word. -/
theorem automatic_eq [DecidableEq α] (k : List α) : Automatic fun w => decide (w = k) := by
  induction k with
  | nil =>
    refine automatic_of_fold (S := Bool) true (fun _ _ => false) id fun w => ?_
    cases w with
    | nil => rfl
    | cons a w =>
      have : ∀ w : List α, w.foldl (fun (_ : Bool) _ => false) false = false := by
        intro w; induction w with
        | nil => rfl
        | cons a w ih => exact ih
      simp [this]
  | cons a k ih =>
    obtain ⟨S, hS, start, step, out, h⟩ := ih
    -- `none` is the start; `some none` has failed
    refine automatic_of_fold (S := Option (Option S)) none
      (fun s b => some (match s with
        | none => if b = a then some start else none
        | some s => s.map fun s => step s b))
      (fun s => match s with | some (some s) => out s | _ => false) fun w => ?_
    have key : ∀ (w : List α) (s : Option S), w.foldl (fun (s : Option (Option S)) b => some (match s with
        | none => if b = a then some start else none
        | some s => s.map fun s => step s b)) (some s) = some (s.map fun s => w.foldl step s) := by
      intro w
      induction w with
      | nil => intro s; cases s <;> rfl
      | cons b w ih => intro s; rw [List.foldl_cons, ih]; cases s <;> rfl
    cases w with
    | nil => rfl
    | cons b w =>
      rw [List.foldl_cons, key]
      by_cases hb : b = a
      · simp only [hb, if_true, Option.map_some, ← h]
        simp
      · simp [hb]

/-- The language of the words with a given value. -/
theorem Automatic.regular {f : List α → C} (h : Automatic f) (p : C → Prop) :
    Language.IsRegular ({w | p (f w)} : Language α) := by
  obtain ⟨S, hS, start, step, out, h⟩ := h
  have := Fintype.ofFinite S
  refine ⟨S, this, ⟨step, start, {s | p (out s)}⟩, ?_⟩
  ext w
  rw [DFA.mem_accepts]
  show p (out _) ↔ p (f w)
  rw [h]
  rfl

end

/-! ## Words -/

/-- Where a comment, a word or neither is being read. -/
inductive Mode (S : Type) where
  | between
  | comment
  | word (s : S)

instance {S : Type} [Finite S] : Finite (Mode S) :=
  Finite.of_surjective (fun x : Option (Option S) => match x with
    | none => Mode.between | some none => .comment | some (some s) => .word s)
    (fun m => by cases m with
      | between => exact ⟨none, rfl⟩
      | comment => exact ⟨some none, rfl⟩
      | word s => exact ⟨some (some s), rfl⟩)

section
variable {S Q C : Type} (cls : Tok → C) (s0 : S) (sstep : S → UInt8 → S) (sout : S → C) (qstep : Q → C → Q)

/-- At the end of a word, and only there, a token is passed on. -/
def finish (x : Q × Mode S) : Q :=
  match x.2 with
  | .word s => qstep x.1 (sout s)
  | _ => x.1

/-- Reading one byte. -/
def scan (x : Q × Mode S) (c : UInt8) : Q × Mode S :=
  if byteAlphabet.eol c then (qstep (finish sout qstep x) (cls [c]), .between)
  else match x.2 with
    | .comment => x
    | .between => if byteAlphabet.blank c then (x.1, .between)
      else if byteAlphabet.hash c then (x.1, .comment)
      else (x.1, .word (sstep s0 c))
    | .word s => if byteAlphabet.blank c then (finish sout qstep x, .between)
      else if byteAlphabet.hash c then (finish sout qstep x, .comment)
      else (x.1, .word (sstep s c))

end

/-- A function of the tokens of a text that reads them once with finitely many states, and sees only
a class of each that is itself automatic, is automatic. -/
theorem automatic_tokens {C D : Type} {cls : Tok → C} (hc : Automatic cls) {f : List C → D} (hf : Automatic f) :
    Automatic fun input : Bytes => f ((tokens input).map cls) := by
  obtain ⟨S, hS, s0, sstep, sout, hc⟩ := hc
  obtain ⟨Q, hQ, q0, qstep, qout, hf⟩ := hf
  refine automatic_of_fold (S := Q × Mode S) (q0, .between) (scan cls s0 sstep sout qstep)
    (fun x => qout (finish sout qstep x)) fun input => ?_
  have key :  ∀ input : Bytes, ∀ q,
      (((tokens input).map cls).foldl qstep q = finish sout qstep (input.foldl (scan cls s0 sstep sout qstep) (q, .between))) ∧
      (((tokens (input.dropWhile fun c => !byteAlphabet.eol c)).map cls).foldl qstep q =
        finish sout qstep (input.foldl (scan cls s0 sstep sout qstep) (q, .comment))) ∧
      ∀ w : Bytes, w ≠ [] → (∀ c ∈ w, byteAlphabet.ordinary c = true) →
        ((tokens (w ++ input)).map cls).foldl qstep q =
          finish sout qstep (input.foldl (scan cls s0 sstep sout qstep) (q, .word (w.foldl sstep s0))) := by
    intro input
    induction input with
    | nil =>
      intro q
      refine ⟨rfl, rfl, fun w hw ho => ?_⟩
      rw [tokens, tokensOf_word byteAlphabet w [] hw ho (by simp), tokensOf_nil]
      simp [finish, hc]
    | cons c input ih =>
      intro q
      by_cases he : byteAlphabet.eol c = true
      · have e1 : ∀ x, scan cls s0 sstep sout qstep x c = (qstep (finish sout qstep x) (cls [c]), .between) := fun x => by simp [scan, he]
        have e2 : tokens (c :: input) = [c] :: tokens input := tokensOf_eol byteAlphabet he input
        refine ⟨?_, ?_, fun w hw ho => ?_⟩
        · rw [e2, List.foldl_cons, e1, ← (ih _).1]; rfl
        · rw [List.dropWhile_cons_of_neg (by simp [he]), e2, List.foldl_cons, e1, ← (ih _).1]; rfl
        · rw [tokens, tokensOf_word byteAlphabet w _ hw ho (by simp [Alphabet.ordinary, he])]
          show List.foldl _ _ (List.map _ (w :: tokens (c :: input))) = _
          rw [e2, List.foldl_cons, e1, ← (ih _).1]
          simp [finish, hc w]
      · have he : byteAlphabet.eol c = false := by simpa using he
        have comm : ((tokens ((c :: input).dropWhile fun c => !byteAlphabet.eol c)).map cls).foldl qstep q =
            finish sout qstep ((c :: input).foldl (scan cls s0 sstep sout qstep) (q, .comment)) := by
          rw [List.dropWhile_cons_of_pos (by simp [he]), (ih q).2.1, List.foldl_cons]
          simp [scan, he]
        by_cases hb : byteAlphabet.blank c = true
        · have hh : byteAlphabet.hash c = false := by
            simp only [byteAlphabet, Bool.or_eq_true, beq_iff_eq] at hb ⊢
            rcases hb with (rfl | rfl) | rfl <;> rfl
          have e2 : tokens (c :: input) = tokens input := tokensOf_blank byteAlphabet hb he hh input
          refine ⟨?_, comm, fun w hw ho => ?_⟩
          · rw [e2, (ih q).1, List.foldl_cons]
            simp [scan, he, hb, finish]
          · rw [tokens, tokensOf_word byteAlphabet w _ hw ho (by simp [Alphabet.ordinary, hb])]
            show List.foldl _ _ (List.map _ (w :: tokens (c :: input))) = _
            rw [e2, List.map_cons, List.foldl_cons, (ih _).1, List.foldl_cons]
            simp [scan, he, hb, finish, hc w]
        · have hb : byteAlphabet.blank c = false := by simpa using hb
          by_cases hh : byteAlphabet.hash c = true
          · have e2 : tokens (c :: input) = tokens (input.dropWhile fun c => !byteAlphabet.eol c) := tokensOf_hash byteAlphabet hh he input
            refine ⟨?_, comm, fun w hw ho => ?_⟩
            · rw [e2, (ih q).2.1, List.foldl_cons]
              simp [scan, he, hb, hh, finish]
            · rw [tokens, tokensOf_word byteAlphabet w _ hw ho (by simp [Alphabet.ordinary, hh])]
              show List.foldl _ _ (List.map _ (w :: tokens (c :: input))) = _
              rw [e2, List.map_cons, List.foldl_cons, (ih _).2.1, List.foldl_cons]
              simp [scan, he, hb, hh, finish, hc w]
          · have hh : byteAlphabet.hash c = false := by simpa using hh
            have hord : byteAlphabet.ordinary c = true := by simp [Alphabet.ordinary, he, hb, hh]
            refine ⟨?_, comm, fun w hw ho => ?_⟩
            · have := (ih q).2.2 [c] (by simp) (by simpa using hord)
              rw [show c :: input = [c] ++ input from rfl, this]
              simp [scan, he, hb, hh]
            · have := (ih q).2.2 (w ++ [c]) (by simp) (by
                intro d hd
                rcases List.mem_append.mp hd with hd | hd
                · exact ho d hd
                · rw [List.mem_singleton.mp hd]; exact hord)
              rw [List.append_assoc] at this
              rw [show c :: input = [c] ++ input from rfl, this]
              simp [scan, he, hb, hh]
  rw [hf, (key input q0).1]

/-! ## Numbers -/

theorem automatic_sign {C : Type} {f : Bytes → C} (h : Automatic f) : Automatic fun w => f (dropSign w) := by
  refine (congrArg Automatic (funext fun w => ?_)).mpr (h.skip fun c => c == 43 || c == 45)
  cases w with
  | nil => rfl
  | cons c r =>
    unfold dropSign
    split
    · rename_i e; cases e; rfl
    · rename_i e; cases e; rfl
    · rename_i h1 h2
      have : (c == 43 || c == 45) = false := by
        simp only [Bool.or_eq_false_iff, beq_eq_false_iff_ne]
        exact ⟨fun e => h1 r (by rw [e]), fun e => h2 r (by rw [e])⟩
      simp [this]

/-- How far a decimal number has been read. -/
inductive NumState where
  | start | int | dot | frac | exp | expSign | expInt | bad
deriving DecidableEq

instance : Finite NumState :=
  Finite.of_surjective (fun n : Fin 8 =>
    ([.start, .int, .dot, .frac, .exp, .expSign, .expInt, .bad] : List NumState)[n]) (by
    intro s
    cases s
    exacts [⟨0, rfl⟩, ⟨1, rfl⟩, ⟨2, rfl⟩, ⟨3, rfl⟩, ⟨4, rfl⟩, ⟨5, rfl⟩, ⟨6, rfl⟩, ⟨7, rfl⟩])

def numStep (s : NumState) (c : UInt8) : NumState :=
  match s with
  | .start => if isDigit c then .int else if c = 46 then .dot else .bad
  | .int => if isDigit c then .int else if c = 46 then .frac else if c = 101 ∨ c = 69 then .exp else .bad
  | .dot => if isDigit c then .frac else .bad
  | .frac => if isDigit c then .frac else if c = 101 ∨ c = 69 then .exp else .bad
  | .exp => if c = 43 ∨ c = 45 then .expSign else if isDigit c then .expInt else .bad
  | .expSign => if isDigit c then .expInt else .bad
  | .expInt => if isDigit c then .expInt else .bad
  | .bad => .bad

def numOut (s : NumState) : Bool := s = .int ∨ s = .frac ∨ s = .expInt

theorem num_bad (w : Bytes) : numOut (w.foldl numStep .bad) = false := by
  induction w with
  | nil => rfl
  | cons c w ih => exact ih

theorem num_expInt (w : Bytes) : numOut (w.foldl numStep .expInt) = w.all isDigit := by
  induction w with
  | nil => rfl
  | cons c w ih =>
    by_cases hd : isDigit c = true
    · simp [numStep, hd, ih]
    · simp [numStep, hd, num_bad]

theorem num_expSign (w : Bytes) : numOut (w.foldl numStep .expSign) = (!w.isEmpty && w.all isDigit) := by
  cases w with
  | nil => rfl
  | cons c w =>
    by_cases hd : isDigit c = true
    · simp [numStep, hd, num_expInt]
    · simp [numStep, hd, num_bad]

theorem num_exp (w : Bytes) : numOut (w.foldl numStep .exp) = isExpTail w := by
  cases w with
  | nil => rfl
  | cons c w =>
    by_cases hs : c = 43 ∨ c = 45
    · have : isExpTail (c :: w) = (!w.isEmpty && w.all isDigit) := by
        rcases hs with rfl | rfl <;> rfl
      rw [this, ← num_expSign, List.foldl_cons]
      simp [numStep, hs]
    · have : isExpTail (c :: w) = (c :: w).all isDigit := by
        unfold isExpTail dropSign
        split
        · rename_i e; cases e; simp at hs
        · rename_i e; cases e; simp at hs
        · simp
      rw [this, List.foldl_cons]
      by_cases hd : isDigit c = true
      · simp [numStep, hs, hd, num_expInt]
      · simp [numStep, hs, hd, num_bad]

/-- What may follow the digits of a number. -/
def tailOk (r : Bytes) : Bool :=
  match r with
  | [] => true
  | c :: r3 => (c == 101 || c == 69) && isExpTail r3

theorem num_frac (w : Bytes) : numOut (w.foldl numStep .frac) = tailOk (w.dropWhile isDigit) := by
  induction w with
  | nil => rfl
  | cons c w ih =>
    by_cases hd : isDigit c = true
    · rw [List.dropWhile_cons_of_pos hd, ← ih, List.foldl_cons]
      simp [numStep, hd]
    · rw [List.dropWhile_cons_of_neg hd, List.foldl_cons]
      by_cases he : c = 101 ∨ c = 69
      · simp [numStep, hd, he, num_exp, tailOk]
      · simp [numStep, hd, he, num_bad, tailOk]

theorem num_dot (w : Bytes) : numOut (w.foldl numStep .dot) =
    (!(w.takeWhile isDigit).isEmpty && tailOk (w.dropWhile isDigit)) := by
  cases w with
  | nil => rfl
  | cons c w =>
    by_cases hd : isDigit c = true
    · rw [List.dropWhile_cons_of_pos hd, List.takeWhile_cons_of_pos hd, List.foldl_cons]
      simp [numStep, hd, num_frac]
    · rw [List.takeWhile_cons_of_neg hd, List.foldl_cons]
      simp [numStep, hd, num_bad]

/-- What may follow the first digits of a number. -/
def afterInt (r : Bytes) : Bool :=
  match r with
  | 46 :: r' => tailOk (r'.dropWhile isDigit)
  | _ => tailOk r

theorem num_int (w : Bytes) : numOut (w.foldl numStep .int) = afterInt (w.dropWhile isDigit) := by
  induction w with
  | nil => rfl
  | cons c w ih =>
    by_cases hd : isDigit c = true
    · rw [List.dropWhile_cons_of_pos hd, ← ih, List.foldl_cons]
      simp [numStep, hd]
    · rw [List.dropWhile_cons_of_neg hd, List.foldl_cons]
      by_cases h4 : c = 46
      · subst h4
        rw [show numStep .int 46 = .frac from rfl, num_frac]
        rfl
      · have : afterInt (c :: w) = tailOk (c :: w) := by
          unfold afterInt
          split
          · rename_i e; cases e; exact absurd rfl h4
          · rfl
        rw [this]
        by_cases he : c = 101 ∨ c = 69
        · simp [numStep, hd, h4, he, num_exp, tailOk]
        · simp [numStep, hd, h4, he, num_bad, tailOk]

theorem num_start (w : Bytes) : isFloatNumber w = numOut (w.foldl numStep .start) := by
  cases w with
  | nil => rfl
  | cons c w =>
    by_cases hd : isDigit c = true
    · rw [List.foldl_cons, show numStep .start c = .int by simp [numStep, hd], num_int]
      simp only [isFloatNumber, List.takeWhile_cons_of_pos hd, List.dropWhile_cons_of_pos hd]
      generalize w.dropWhile isDigit = r
      simp only [List.isEmpty_cons, Bool.not_false, Bool.true_or, Bool.true_and]
      change tailOk _ = _
      unfold afterInt
      split
      · rfl
      · rename_i hx
        split
        · exact absurd rfl (hx _)
        · rfl
    · simp only [isFloatNumber, List.takeWhile_cons_of_neg hd, List.dropWhile_cons_of_neg hd]
      by_cases h4 : c = 46
      · subst h4
        rw [List.foldl_cons, show numStep .start 46 = .dot from rfl, num_dot]
        simp [tailOk]
        rfl
      · rw [List.foldl_cons, show numStep .start c = .bad by simp [numStep, hd, h4], num_bad]
        split
        · rename_i e; cases e; exact absurd rfl h4
        · simp

theorem automatic_isFloat : Automatic isFloat := by
  have h1 : Automatic isFloatNumber := automatic_of_fold .start numStep numOut num_start
  have h2 := fun k => (automatic_eq (α := UInt8) k).map lower
  have h3 := (h1.prod ((h2 b!"inf").prod ((h2 b!"infinity").prod (h2 b!"nan")))).comp
    fun x => x.1 || (x.2.1 || x.2.2.1 || x.2.2.2)
  refine (congrArg Automatic (funext fun w => ?_)).mpr (automatic_sign h3)
  simp only [isFloat, beq_eq_decide]

/-- The value of digits, kept up to a bound. -/
theorem automatic_bounded (M : Nat) : Automatic fun ds : Bytes =>
    (parseDigits ds).bind fun n => if n ≤ M then some n else none := by
  let sat : Nat → Fin (M + 2) := fun n => ⟨min n (M + 1), by omega⟩
  let step : Option (Option (Fin (M + 2))) → UInt8 → Option (Option (Fin (M + 2))) := fun s c =>
    some (if isDigit c then
      match s with
      | none => some (sat (c.toNat - 48))
      | some none => none
      | some (some v) => some (sat (10 * v.val + (c.toNat - 48)))
      else none)
  have sat10 : ∀ n d, sat (10 * (sat n).val + d) = sat (10 * n + d) := by
    intro n d
    simp only [sat, Fin.mk.injEq]
    omega
  have bad : ∀ w : Bytes, w.foldl step (some none) = some none := by
    intro w
    induction w with
    | nil => rfl
    | cons c w ih =>
      rw [List.foldl_cons]
      have : step (some none) c = some none := by simp [step]
      rw [this, ih]
  have good : ∀ (w : Bytes) (n : Nat), w.foldl step (some (some (sat n))) =
      some (if w.all isDigit then some (sat (w.foldl (fun n c => 10 * n + (c.toNat - 48)) n)) else none) := by
    intro w
    induction w with
    | nil => intro n; rfl
    | cons c w ih =>
      intro n
      by_cases hd : isDigit c = true
      · have : step (some (some (sat n))) c = some (some (sat (10 * n + (c.toNat - 48)))) := by
          simp only [step, hd, if_true, sat10]
        rw [List.foldl_cons, this, ih]
        simp [hd]
      · have : step (some (some (sat n))) c = some none := by simp [step, hd]
        rw [List.foldl_cons, this, bad]
        simp [hd]
  refine automatic_of_fold (S := Option (Option (Fin (M + 2)))) none step
    (fun s => match s with | some (some v) => if v.val ≤ M then some v.val else none | _ => none) fun w => ?_
  cases w with
  | nil => rfl
  | cons c w =>
    by_cases hd : isDigit c = true
    · have : step none c = some (some (sat (c.toNat - 48))) := by simp only [step, hd, if_true]
      rw [List.foldl_cons, this, good]
      by_cases ha : w.all isDigit = true
      · have e : parseDigits (c :: w) = some (w.foldl (fun n c => 10 * n + (c.toNat - 48)) (c.toNat - 48)) := by
          simp only [parseDigits, List.all_cons, hd, ha, digitsVal, List.foldl_cons]
          simp
        rw [e]
        simp only [ha, if_true, Option.bind_some, sat]
        generalize w.foldl (fun n c => 10 * n + (c.toNat - 48)) (c.toNat - 48) = v
        by_cases hv : v ≤ M
        · rw [if_pos hv, if_pos (by omega), Nat.min_eq_left (by omega)]
        · rw [if_neg hv, if_neg (by omega)]
      · have e : parseDigits (c :: w) = none := by simp [parseDigits, ha]
        simp [e, ha]
    · have : step none c = some none := by simp [step, hd]
      rw [List.foldl_cons, this, bad]
      simp [parseDigits, hd]

theorem automatic_parseUsize : Automatic parseUsize := by
  refine (congrArg Automatic (funext fun w => ?_)).mpr ((automatic_bounded usizeMax).skip fun c => c == 43)
  have e : ∀ ds : Bytes, (match parseDigits ds with | none => none | some n => if n ≤ usizeMax then some n else none) =
      (parseDigits ds).bind fun n => if n ≤ usizeMax then some n else none := by
    intro ds
    cases parseDigits ds <;> rfl
  have e' : parseUsize w = (parseDigits (match w with | 43 :: r => r | _ => w)).bind
      fun n => if n ≤ usizeMax then some n else none := e _
  rw [e']
  cases w with
  | nil => rfl
  | cons c r =>
    by_cases hc : c = 43
    · subst hc; rfl
    · have : (match c :: r with | 43 :: r' => r' | _ => c :: r) = c :: r := by
        split
        · rename_i e; cases e; exact absurd rfl hc
        · rfl
      rw [this]
      simp [hc]

/-! ## The tokens of a material library -/

open Verif.Mtl Verif.Spec.Mtl

/-- What can be in the first place of a line. -/
inductive Kw where
  | nl | newmtl | color | num | illum | map | other
deriving DecidableEq

def colorTags : List Tok := [b!"Ka", b!"Kd", b!"Ks", b!"Ke"]
def numTags : List Tok := [b!"d", b!"Ns", b!"Ni"]
def mapTags : List Tok :=
  [b!"map_Ka", b!"map_Kd", b!"map_Ks", b!"map_Ke", b!"map_Ns", b!"map_Bump", b!"bump", b!"disp", b!"map_d", b!"decal"]

def kwOf (t : Tok) : Kw :=
  if t ∈ [nl] then .nl else if t ∈ [b!"newmtl"] then .newmtl else if t ∈ colorTags then .color
  else if t ∈ numTags then .num else if t ∈ [b!"illum"] then .illum else if t ∈ mapTags then .map else .other

theorem automatic_mem (l : List Tok) : Automatic fun w : Tok => decide (w ∈ l) := by
  induction l with
  | nil => exact automatic_of_fold (S := Unit) () (fun _ _ => ()) (fun _ => false) fun w => by simp
  | cons k l ih =>
    refine (congrArg Automatic (funext fun w => ?_)).mpr (((automatic_eq k).prod ih).comp fun x => x.1 || x.2)
    simp [List.mem_cons]

theorem automatic_kwOf : Automatic kwOf := by
  have h := ((automatic_mem [nl]).prod ((automatic_mem [b!"newmtl"]).prod ((automatic_mem colorTags).prod
    ((automatic_mem numTags).prod ((automatic_mem [b!"illum"]).prod (automatic_mem mapTags)))))).comp
    fun x => if x.1 = true then Kw.nl else if x.2.1 = true then .newmtl else if x.2.2.1 = true then .color
      else if x.2.2.2.1 = true then .num else if x.2.2.2.2.1 = true then .illum
      else if x.2.2.2.2.2 = true then .map else .other
  refine (congrArg Automatic (funext fun w => ?_)).mpr h
  simp only [kwOf, decide_eq_true_eq]

/-- All that matters of a token. -/
def cls (t : Tok) : Kw × Bool × Option Nat := (kwOf t, isFloat t, parseUsize t)

theorem automatic_cls : Automatic cls := automatic_kwOf.prod (automatic_isFloat.prod automatic_parseUsize)

/-- What is expected next. -/
inductive Place where
  | start | name | body | floats (more : Fin 3) | illum | map | failed (k : ErrorKind)

instance : Finite ErrorKind :=
  Finite.of_surjective (fun n : Fin 7 => ([.EndOfFile, .ExpectedTagStatement, .ExpectedFloat, .ExpectedInteger,
    .ExpectedEndOfInput, .UnknownIlluminationModel, .ErrorParsingMaterial] : List ErrorKind)[n]) (by
    intro s
    cases s
    exacts [⟨0, rfl⟩, ⟨1, rfl⟩, ⟨2, rfl⟩, ⟨3, rfl⟩, ⟨4, rfl⟩, ⟨5, rfl⟩, ⟨6, rfl⟩])

instance : Finite Place :=
  Finite.of_surjective (fun x : Fin 5 ⊕ (Fin 3 ⊕ ErrorKind) => match x with
    | .inl n => ([.start, .name, .body, .illum, .map] : List Place)[n]
    | .inr (.inl k) => .floats k
    | .inr (.inr k) => .failed k) (by
    intro s
    cases s with
    | start => exact ⟨.inl 0, rfl⟩
    | name => exact ⟨.inl 1, rfl⟩
    | body => exact ⟨.inl 2, rfl⟩
    | illum => exact ⟨.inl 3, rfl⟩
    | map => exact ⟨.inl 4, rfl⟩
    | floats k => exact ⟨.inr (.inl k), rfl⟩
    | failed k => exact ⟨.inr (.inr k), rfl⟩)

def move (s : Place) (c : Kw × Bool × Option Nat) : Place :=
  match s with
  | .start => match c.1 with
    | .nl => .start
    | .newmtl => .name
    | _ => .failed .ExpectedEndOfInput
  | .name => .body
  | .body => match c.1 with
    | .nl => .body
    | .newmtl => .name
    | .color => .floats 2
    | .num => .floats 0
    | .illum => .illum
    | .map => .map
    | .other => .failed .ErrorParsingMaterial
  | .floats 0 => if c.2.1 then .body else .failed .ExpectedFloat
  | .floats 1 => if c.2.1 then .floats 0 else .failed .ExpectedFloat
  | .floats 2 => if c.2.1 then .floats 1 else .failed .ExpectedFloat
  | .illum => match c.2.2 with
    | none => .failed .ExpectedInteger
    | some n => if n ≤ 2 then .body else .failed .UnknownIlluminationModel
  | .map => .body
  | .failed k => .failed k

def verdict : Place → Option ErrorKind
  | .start => none
  | .body => none
  | .failed k => some k
  | _ => some .EndOfFile

/-- Reading classes of tokens from a place on. -/
def run (s : Place) (toks : List Tok) : Place := (toks.map cls).foldl move s

theorem run_cons (s : Place) (t : Tok) (toks : List Tok) : run s (t :: toks) = run (move s (cls t)) toks := rfl

theorem run_failed (k : ErrorKind) (toks : List Tok) : run (.failed k) toks = .failed k := by
  induction toks with
  | nil => rfl
  | cons t toks ih => exact ih

theorem kw_color (s : ColorSlot) : kwOf s.tag = .color := by cases s <;> decide
theorem kw_num (s : NumSlot) : kwOf s.tag = .num := by cases s <;> decide
theorem kw_map {s : MapSlot} {t : Tok} (h : t ∈ s.tags) : kwOf t = .map := by
  have : t ∈ mapTags := by
    cases s <;> simp only [MapSlot.tags, List.mem_cons, List.not_mem_nil, or_false] at h <;>
      first | (subst h; decide) | (rcases h with rfl | rfl <;> decide)
  simp only [mapTags, List.mem_cons, List.not_mem_nil, or_false] at this
  rcases this with rfl | rfl | rfl | rfl | rfl | rfl | rfl | rfl | rfl | rfl <;> decide

theorem kw_other {t : Tok} (h : ¬ IsKeyword t) (h1 : t ≠ nl) (h2 : t ≠ b!"newmtl") : kwOf t = .other := by
  unfold IsKeyword at h
  simp only [not_or, not_exists] at h
  obtain ⟨hc, hn, hi, hm⟩ := h
  have c1 : t ∉ colorTags := by
    intro h
    simp only [colorTags, List.mem_cons, List.not_mem_nil, or_false] at h
    rcases h with h | h | h | h
    exacts [hc .ambient h, hc .diffuse h, hc .specular h, hc .emissive h]
  have c2 : t ∉ numTags := by
    intro h
    simp only [numTags, List.mem_cons, List.not_mem_nil, or_false] at h
    rcases h with h | h | h
    exacts [hn .dissolve h, hn .exponent h, hn .density h]
  have c3 : t ∉ mapTags := by
    intro h
    simp only [mapTags, List.mem_cons, List.not_mem_nil, or_false] at h
    rcases h with h | h | h | h | h | h | h | h | h | h
    exacts [hm .ambient (by simp [MapSlot.tags, h]), hm .diffuse (by simp [MapSlot.tags, h]),
      hm .specular (by simp [MapSlot.tags, h]), hm .emissive (by simp [MapSlot.tags, h]),
      hm .exponent (by simp [MapSlot.tags, h]), hm .bump (by simp [MapSlot.tags, h]),
      hm .bump (by simp [MapSlot.tags, h]), hm .displacement (by simp [MapSlot.tags, h]),
      hm .dissolve (by simp [MapSlot.tags, h]), hm .decal (by simp [MapSlot.tags, h])]
  have m1 : t ∉ [nl] := by simpa using h1
  have m2 : t ∉ [b!"newmtl"] := by simpa using h2
  have m3 : t ∉ [b!"illum"] := by simpa using hi
  rw [kwOf, if_neg m1, if_neg m2, if_neg c1, if_neg c2, if_neg m3, if_neg c3]

theorem run_stmt {it : Item} {toks rest : List Tok} (h : Stmt it toks rest) : run .body toks = run .body rest := by
  cases h with
  | @color s r g b _ h1 h2 h3 =>
    rw [run_cons, run_cons, run_cons, run_cons]
    simp only [cls, move, kw_color, h1, h2, h3, if_true]
  | @num s x _ h1 =>
    rw [run_cons, run_cons]
    simp only [cls, move, kw_num, h1, if_true]
  | @illum model t _ h1 =>
    rw [run_cons, run_cons]
    simp only [cls, move, show kwOf b!"illum" = .illum by decide, h1]
    rw [if_pos (by cases model <;> decide)]
  | @map s tag name _ h1 =>
    rw [run_cons, run_cons]
    simp only [cls, move, kw_map h1]

theorem move_nl_body : move .body (cls nl) = .body := by simp only [cls, move, show kwOf nl = .nl by decide]
theorem move_nl_start : move .start (cls nl) = .start := by simp only [cls, move, show kwOf nl = .nl by decide]
theorem move_newmtl {s : Place} (h : s = .start ∨ s = .body) : move s (cls b!"newmtl") = .name := by
  rcases h with rfl | rfl <;> simp only [cls, move, show kwOf b!"newmtl" = .newmtl by decide]

theorem run_body {items : List Item} {toks rest : List Tok} (h : Body items toks rest) :
    run .body toks = run .body rest := by
  induction h with
  | done _ => rfl
  | blank _ ih => rw [run_cons, move_nl_body, ih]
  | stmt h _ ih => rw [run_stmt h, ih]

theorem run_mats {mats : List MatAst} {toks : List Tok} (h : Mats mats toks) :
    ∀ s, s = .start ∨ s = .body → verdict (run s toks) = none := by
  induction h with
  | done => rintro s (rfl | rfl) <;> rfl
  | mat hb _ ih =>
    intro s hs
    rw [run_cons, run_cons, move_newmtl hs]
    show verdict (run .body _) = none
    rw [run_body hb]
    exact ih _ (.inr rfl)

theorem run_file {mats : List MatAst} {toks : List Tok} (h : FileOk toks mats) : verdict (run .start toks) = none := by
  induction h with
  | blank _ ih => rw [run_cons, move_nl_start, ih]
  | mats h => exact run_mats h _ (.inl rfl)

theorem run_stmtErr {toks rest : List Tok} {k : ErrorKind} {m : Bytes} (h : StmtErr toks k m rest) :
    verdict (run .body toks) = some k := by
  cases h with
  | @color_eof s xs hx hf =>
    rw [run_cons]
    simp only [cls, move, kw_color]
    match xs, hx, hf with
    | [], _, _ => rfl
    | [a], _, hf =>
      rw [run_cons]
      simp only [cls, move, hf a (by simp), if_true]
      rfl
    | [a, b], _, hf =>
      rw [run_cons, run_cons]
      simp only [cls, move, hf a (by simp), hf b (by simp), if_true]
      rfl
    | _ :: _ :: _ :: _, hx, _ => exact absurd hx (by simp)
  | @color_bad s xs t rest hx hf ht =>
    rw [run_cons]
    simp only [cls, move, kw_color]
    match xs, hx, hf with
    | [], _, _ =>
      rw [List.nil_append, run_cons]
      simp only [cls, move, ht, Bool.false_eq_true, if_false, run_failed, verdict]
    | [a], _, hf =>
      rw [List.cons_append, List.nil_append, run_cons, run_cons]
      simp only [cls, move, hf a (by simp), if_true, ht, Bool.false_eq_true, if_false, run_failed, verdict]
    | [a, b], _, hf =>
      rw [List.cons_append, List.cons_append, List.nil_append, run_cons, run_cons, run_cons]
      simp only [cls, move, hf a (by simp), hf b (by simp), if_true, ht, Bool.false_eq_true, if_false, run_failed,
        verdict]
    | _ :: _ :: _ :: _, hx, _ => exact absurd hx (by simp)
  | @num_eof s =>
    rw [run_cons]
    simp only [cls, move, kw_num]
    rfl
  | @num_bad s t _ ht =>
    rw [run_cons, run_cons]
    simp only [cls, move, kw_num, ht, Bool.false_eq_true, if_false, run_failed, verdict]
  | illum_eof => rfl
  | illum_bad ht =>
    rw [run_cons, run_cons]
    simp only [cls, move, show kwOf b!"illum" = .illum by decide, ht, run_failed, verdict]
  | illum_unknown ht hn =>
    rw [run_cons, run_cons]
    simp only [cls, move, show kwOf b!"illum" = .illum by decide, ht]
    rw [if_neg (by omega), run_failed, verdict]
  | map_eof ht =>
    rw [run_cons]
    simp only [cls, move, kw_map ht]
    rfl
  | unknown h h1 h2 =>
    rw [run_cons]
    simp only [cls, move, kw_other h h1 h2, run_failed, verdict]

theorem run_bodyErr {toks rest : List Tok} {k : ErrorKind} {m : Bytes} (h : BodyErr toks k m rest) :
    verdict (run .body toks) = some k := by
  induction h with
  | here h => exact run_stmtErr h
  | blank _ ih => rw [run_cons, move_nl_body, ih]
  | later h _ ih => rw [run_stmt h, ih]

theorem run_matsErr {toks rest : List Tok} {k : ErrorKind} {m : Bytes} (h : MatsErr toks k m rest) :
    ∀ s, s = .start ∨ s = .body → verdict (run s toks) = some k := by
  induction h with
  | no_name => intro s hs; rw [run_cons, move_newmtl hs]; rfl
  | body h =>
    intro s hs
    rw [run_cons, run_cons, move_newmtl hs]
    exact run_bodyErr h
  | later h _ ih =>
    intro s hs
    rw [run_cons, run_cons, move_newmtl hs]
    show verdict (run .body _) = _
    rw [run_body h]
    exact ih _ (.inr rfl)

theorem run_fileErr {toks rest : List Tok} {k : ErrorKind} {m : Bytes} (h : FileErr toks k m rest) :
    verdict (run .start toks) = some k := by
  induction h with
  | blank _ ih => rw [run_cons, move_nl_start, ih]
  | @trailing t toks h1 h2 =>
    rw [run_cons]
    have : move .start (cls t) = .failed .ExpectedEndOfInput := by
      have m1 : kwOf t ≠ .nl := by
        intro h
        simp only [kwOf, List.mem_singleton, h1, if_false, h2] at h
        split at h <;> try split at h
        all_goals first | cases h | skip
        all_goals (split at h <;> try split at h)
        all_goals cases h
      have m2 : kwOf t ≠ .newmtl := by
        intro h
        simp only [kwOf, List.mem_singleton, h1, if_false, h2] at h
        split at h <;> try split at h
        all_goals first | cases h | skip
        all_goals (split at h <;> try split at h)
        all_goals cases h
      simp only [cls, move]
    rw [this, run_failed, verdict]
  | mats h => exact run_matsErr h _ (.inl rfl)

end Verif.Regular

namespace Verif.Props

open Verif Verif.Spec Verif.Regular

/-! ## C96 -/

section
variable {F : Type} [FloatSem F]

theorem mtl_verdict (input : Bytes) :
    kindOf (Mtl.parse input : Out Mtl.ErrorKind (Mtl.MaterialSet F)) = verdict (run .start (tokens input)) := by
  rcases Mtl.parse_total (F := F) input with ⟨r, h⟩ | ⟨e, h⟩
  · rw [h]
    obtain ⟨mats, hf, -⟩ := Mtl.parse_ok_iff.mp h
    exact (run_file hf).symm
  · rw [h]
    obtain ⟨rest, hf, -⟩ := Mtl.parse_err_iff.mp h
    exact (run_fileErr hf).symm

theorem automatic_mtl :
    Automatic fun input : Bytes => kindOf (Mtl.parse input : Out Mtl.ErrorKind (Mtl.MaterialSet F)) := by
  refine (congrArg Automatic (funext fun input => mtl_verdict input)).mpr ?_
  exact automatic_tokens automatic_cls (f := fun cs => verdict (cs.foldl move .start))
    (automatic_of_fold .start move verdict fun _ => rfl)

/-- **C96** The MTL texts that are accepted are a regular language. -/
theorem C96_mtl_accepted :
    Language.IsRegular ({input | ∃ r : Mtl.MaterialSet F, Mtl.parse input = .ok r} : Language UInt8) := by
  refine (congrArg Language.IsRegular (Set.ext fun input => ?_)).mpr
    ((automatic_mtl (F := F)).regular fun k => k = none)
  show (∃ r, _) ↔ kindOf _ = none
  rcases Mtl.parse_total (F := F) input with ⟨r, h⟩ | ⟨e, h⟩ <;> rw [h] <;> simp [kindOf]

/-- **C96** For every kind of error the MTL texts that are rejected with it are a regular language. -/
theorem C96_mtl_rejected (k : Mtl.ErrorKind) : Language.IsRegular
    ({input | ∃ e, (Mtl.parse input : Out Mtl.ErrorKind (Mtl.MaterialSet F)) = .err e ∧ e.kind = k} : Language UInt8) := by
  refine (congrArg Language.IsRegular (Set.ext fun input => ?_)).mpr
    ((automatic_mtl (F := F)).regular fun k' => k' = some k)
  exact kindOf_eq.symm

end

section
variable {F : Type} [FloatSem F] {cfg : Cfg}

open Verif.Obj Verif.Spec.Obj

/-- A number of vertices. -/
def vertices (n : Nat) : Bytes := (List.replicate n b!"v 0 0 0\n").flatten

/-- A statement that refers to a vertex. -/
def point (m : Nat) : Bytes := b!"p " ++ showNat m

theorem vertices_length (n : Nat) : (vertices n).length = 8 * n := by
  simp [vertices, Nat.mul_comm]

theorem showNat_length_le (n : Nat) : (showNat n).length ≤ n + 1 := by
  have : ∀ (fuel n : Nat) (acc : Bytes), (showNatAux fuel n acc).length ≤ fuel + acc.length := by
    intro fuel
    induction fuel with
    | zero => intro n acc; simp [showNatAux]
    | succ fuel ih =>
      intro n acc
      unfold showNatAux
      simp only
      split
      · simp only [List.length_cons]; omega
      · have := ih (n / 10) (UInt8.ofNat (48 + n % 10) :: acc)
        simp only [List.length_cons] at this
        omega
  have h := this (n + 1) n []
  simpa [showNat] using h

theorem tokens_point (m : Nat) : tokens (point m) = [b!"p", showNat m] := by
  have h := tokens_token_blank (t := b!"p") (.inl ⟨by simp, by simp⟩) (showNat m)
  have h2 := tokensOf_word byteAlphabet (showNat m) [] (word_showNat m).1 (word_ordinary (word_showNat m)) (by simp)
  rw [List.append_nil, tokensOf_nil] at h2
  rw [point, show b!"p " ++ showNat m = b!"p" ++ 32 :: showNat m from rfl, h]
  exact congrArg _ h2

theorem tokens_vertices (n : Nat) (y : Bytes) : tokens (vertices n ++ y) =
    (List.replicate n [b!"v", b!"0", b!"0", b!"0", nl]).flatten ++ tokens y := by
  induction n with
  | zero => rfl
  | succ n ih =>
    rw [vertices, List.replicate_succ, List.flatten_cons, List.replicate_succ, List.flatten_cons, List.append_assoc]
    show tokens (b!"v 0 0 0\n" ++ (vertices n ++ y)) = _
    rw [show b!"v 0 0 0\n" ++ (vertices n ++ y) = b!"v 0 0 0" ++ 10 :: (vertices n ++ y) from rfl,
      tokens_append_nl, ih]
    rw [show tokens b!"v 0 0 0" = [b!"v", b!"0", b!"0", b!"0"] by decide +kernel]
    rfl

theorem noFloat_nl (l : List Tok) : NoFloat (nl :: l) := by
  intro t ht
  simp only [List.head?_cons, Option.mem_def, Option.some.injEq] at ht
  subst ht
  decide

theorem vertices_at (n : Nat) (hi : Counts) (rest : List Tok) :
    AtBody cfg {} hi ((List.replicate n [b!"v", b!"0", b!"0", b!"0", nl]).flatten ++ rest)
      ⟨hi.v + n, hi.vt, hi.vn⟩ rest := by
  induction n generalizing hi with
  | zero => exact .here
  | succ n ih =>
    rw [List.replicate_succ, List.flatten_cons, List.append_assoc]
    refine .stmt (.v3 (by decide) (by decide) (by decide) (noFloat_nl _)) (.blank ?_)
    have := ih (hi + (Item.v b!"0" b!"0" b!"0" none).counts)
    have e : (⟨(hi + (Item.v b!"0" b!"0" b!"0" none).counts).v + n, (hi + (Item.v b!"0" b!"0" b!"0" none).counts).vt,
        (hi + (Item.v b!"0" b!"0" b!"0" none).counts).vn⟩ : Counts) = ⟨hi.v + (n + 1), hi.vt, hi.vn⟩ := by
      simp only [Item.counts, counts_add, Counts.mk.injEq]
      omega
    rw [e] at this
    exact this

theorem head_vertices (n : Nat) (t : Tok) (ht : t = b!"p") (rest : List Tok) :
    ∃ u more, (u = b!"p" ∨ u = b!"v") ∧
      (List.replicate n [b!"v", b!"0", b!"0", b!"0", nl]).flatten ++ t :: rest = u :: more := by
  cases n with
  | zero => exact ⟨_, _, .inl ht, rfl⟩
  | succ n => exact ⟨_, _, .inr rfl, by rw [List.replicate_succ, List.flatten_cons]; rfl⟩

theorem at_point (n m : Nat) : AtStmt cfg (tokens (vertices n ++ point m)) {} ⟨n, 0, 0⟩ [b!"p", showNat m] := by
  rw [tokens_vertices, tokens_point]
  obtain ⟨u, more, hu, e⟩ := head_vertices n b!"p" rfl [showNat m]
  have hb := vertices_at (cfg := cfg) n {} [b!"p", showNat m]
  rw [show (⟨({} : Counts).v + n, ({} : Counts).vt, ({} : Counts).vn⟩ : Counts) = ⟨n, 0, 0⟩ by simp] at hb
  refine ⟨[], _, .done ?_ ?_, .this (name := []) (mid := _) ?_ hb⟩
  · rw [e]; rcases hu with rfl | rfl <;> simp
  · rw [e]; rcases hu with rfl | rfl <;> simp
  · rw [e]; exact .implicit (by rcases hu with rfl | rfl <;> decide)

theorem point_length {n m : Nat} (hn : n ≤ 10 ^ 18) (hm : m ≤ 10 ^ 18) :
    (vertices n ++ point m).length < 2 ^ 63 := by
  have := showNat_length_le m
  rw [List.length_append, vertices_length, point, List.length_append]
  simp only [List.length_cons, List.length_nil]
  omega

theorem body_from {lo hi hi' : Counts} {toks here rest : List Tok} {items : List Item}
    (h : AtBody cfg lo hi toks hi' here) (hb : Body cfg lo hi' items here rest) :
    ∃ before, Body cfg lo hi (before ++ items) toks rest := by
  induction h with
  | here => exact ⟨[], hb⟩
  | blank _ ih =>
    obtain ⟨b, h⟩ := ih hb
    exact ⟨b, .blank h⟩
  | @stmt _ it _ _ _ _ h1 _ ih =>
    obtain ⟨b, h⟩ := ih hb
    exact ⟨it :: b, .stmt h1 h⟩

/-- A point after `n` vertices is accepted exactly if its number is among theirs. -/
theorem point_accepted {n m : Nat} (hn : n ≤ 10 ^ 18) (hm : m ≤ 10 ^ 18) (h0 : 0 < m) :
    (∃ r : ObjectSet F, Obj.parse cfg (vertices n ++ point m) = .ok r) ↔ m ≤ n := by
  have hlen := point_length hn hm
  have hp : parseIsize (showNat m) = some (m : Int) := parseIsize_showNat (by unfold isizeMax; omega)
  constructor
  · rintro ⟨r, h⟩
    by_contra hlt
    rcases C21_points (F := F) hlen (at_point (cfg := cfg) n m) (ts := []) (is := []) (t := showNat m) (k := m)
      (rest := []) rfl .nil hp (.inr (by simp only; omega)) with ⟨line, msg, h'⟩ | ⟨-, h2, -⟩
    · rw [h] at h'; cases h'
    · omega
  · intro hle
    have hb := vertices_at (cfg := cfg) n {} [b!"p", showNat m]
    rw [show (⟨({} : Counts).v + n, ({} : Counts).vt, ({} : Counts).vn⟩ : Counts) = ⟨n, 0, 0⟩ by simp] at hb
    obtain ⟨before, hb⟩ := body_from hb (items := [.p [m]]) (rest := [])
      (.stmt (.p (ts := [showNat m]) (is := [m]) (mid := []) (by simp) (.cons ⟨hp, h0, hle⟩ .nil) (.inr ⟨rfl, rfl⟩))
        (.done (.inl rfl)))
    refine ⟨_, (parse_ok_iff hlen).mpr ⟨⟨[], [⟨[], before ++ [.p [m]]⟩]⟩, ⟨tokens (vertices n ++ point m), ?_, ?_⟩, rfl⟩⟩
    all_goals
      rw [tokens_vertices, tokens_point]
      obtain ⟨u, more, hu, e⟩ := head_vertices n b!"p" rfl [showNat m]
    · refine .done ?_ ?_ <;> rw [e] <;> rcases hu with rfl | rfl <;> simp [nl]
    · refine .obj (mid := (List.replicate n [b!"v", b!"0", b!"0", b!"0", nl]).flatten ++ [b!"p", showNat m]) ?_ hb ?_ .done
      · rw [e]; exact .implicit (by rcases hu with rfl | rfl <;> decide)
      · intro h
        have := (h (.p [m]) (by simp)).1
        cases this

/-- Automata as in the next theorem exist: one can remember the whole text. -/
theorem remembering (N : Nat) (L : Language UInt8) : ∃ (σ : Type) (_ : Fintype σ) (M : DFA UInt8 σ),
    ∀ input : Bytes, input.length < N → (input ∈ M.accepts ↔ input ∈ L) := by
  have : Finite UInt8 := Finite.of_injective (fun c => (⟨c.toNat, c.toNat_lt⟩ : Fin 256))
    fun a b h => UInt8.toNat_inj.mp (congrArg Fin.val h)
  have hfin : Finite {w : Bytes // w.length < N} := (List.finite_length_lt UInt8 N).to_subtype
  cases N with
  | zero => exact ⟨Unit, inferInstance, ⟨fun _ _ => (), (), ∅⟩, fun _ h => absurd h (by omega)⟩
  | succ N =>
    have := Fintype.ofFinite (Option {w : Bytes // w.length < N + 1})
    refine ⟨Option {w : Bytes // w.length < N + 1}, this,
      ⟨fun s c => s.bind fun w => if h : (w.val ++ [c]).length < N + 1 then some ⟨_, h⟩ else none,
        some ⟨[], by simp⟩, {s | ∃ w ∈ s, w.val ∈ L}⟩, fun input hlen => ?_⟩
    have key : ∀ (y x : Bytes) (h : (x ++ y).length < N + 1) (hx : x.length < N + 1),
        List.foldl (fun (s : Option {w : Bytes // w.length < N + 1}) c =>
          s.bind fun w => if h : (w.val ++ [c]).length < N + 1 then some ⟨_, h⟩ else none) (some ⟨x, hx⟩) y =
        some ⟨x ++ y, h⟩ := by
      intro y
      induction y with
      | nil => intro x h hx; simp
      | cons c y ih =>
        intro x h hx
        have h' : ((x ++ [c]) ++ y).length < N + 1 := by simpa using h
        have hc : (x ++ [c]).length < N + 1 := by simp at h' ⊢; omega
        have := ih (x ++ [c]) h' hc
        simp only [List.foldl_cons, Option.bind_some, hc, dif_pos]
        rw [this]
        simp
    rw [DFA.mem_accepts]
    show (∃ w ∈ List.foldl _ _ input, _) ↔ _
    rw [key input [] hlen (by simp)]
    simp

/-- **C96** The OBJ texts that are accepted cannot be told apart with few states: an automaton that
accepts the same texts shorter than 2^63 bytes as `obj::parse` has more than 10^18 states. -/
theorem C96_obj {σ : Type} [Fintype σ] (M : DFA UInt8 σ)
    (hM : ∀ input : Bytes, input.length < 2 ^ 63 →
      (input ∈ M.accepts ↔ ∃ r : ObjectSet F, Obj.parse cfg input = .ok r)) : 10 ^ 18 < Fintype.card σ := by
  have key : ∀ n m : Nat, n < m → m ≤ 10 ^ 18 → M.eval (vertices n) ≠ M.eval (vertices m) := by
    intro n m hnm hm he
    have h1 := hM _ (point_length (n := n) (m := m) (by omega) hm)
    have h2 := hM _ (point_length (n := m) (m := m) (by omega) hm)
    rw [point_accepted (by omega) hm (by omega)] at h1 h2
    have e : vertices n ++ point m ∈ M.accepts ↔ vertices m ++ point m ∈ M.accepts := by
      have a : ∀ x : Bytes, M.eval (x ++ point m) = M.evalFrom (M.eval x) (point m) :=
        fun x => M.evalFrom_of_append _ _ _
      rw [DFA.mem_accepts, DFA.mem_accepts, a, a, he]
    have := h1.mp (e.mpr (h2.mpr le_rfl))
    omega
  have hinj : Function.Injective fun n : Fin (10 ^ 18 + 1) => M.eval (vertices n.val) := by
    intro a b h
    by_contra hab
    rcases Nat.lt_or_gt_of_ne (fun e => hab (Fin.ext e)) with h1 | h1
    · exact key _ _ h1 (by omega) h
    · exact key _ _ h1 (by omega) h.symm
  have := Fintype.card_le_of_injective _ hinj
  rw [Fintype.card_fin] at this
  omega

example : ∃ (σ : Type) (_ : Fintype σ) (M : DFA UInt8 σ), ∀ input : Bytes, input.length < 2 ^ 63 →
    (input ∈ M.accepts ↔ ∃ r : ObjectSet F, Obj.parse cfg input = .ok r) :=
  remembering _ {input | ∃ r : ObjectSet F, Obj.parse cfg input = .ok r}

end

/-- The languages of the theorems about MTL texts are neither empty nor all texts. -/
example : (∃ r : Mtl.MaterialSet Bytes, Mtl.parse b!"newmtl a\nKd 1 .5 1e-3\nillum +02\nmap_d x\n" = .ok r) ∧
    kindOf (Mtl.parse b!"newmtl a\nKd 1 .5" : Out _ (Mtl.MaterialSet Bytes)) = some .EndOfFile ∧
    kindOf (Mtl.parse b!"newmtl a\nKd 1 . 5" : Out _ (Mtl.MaterialSet Bytes)) = some .ExpectedFloat ∧
    kindOf (Mtl.parse b!"newmtl a\nillum -1" : Out _ (Mtl.MaterialSet Bytes)) = some .ExpectedInteger ∧
    kindOf (Mtl.parse b!"newmtl a\nillum 3" : Out _ (Mtl.MaterialSet Bytes)) = some .UnknownIlluminationModel ∧
    kindOf (Mtl.parse b!"newmtl a\nKx" : Out _ (Mtl.MaterialSet Bytes)) = some .ErrorParsingMaterial ∧
    kindOf (Mtl.parse b!"Kd 1 1 1" : Out _ (Mtl.MaterialSet Bytes)) = some .ExpectedEndOfInput := by
  refine ⟨?_, by decide +kernel⟩
  have h : kindOf (Mtl.parse b!"newmtl a\nKd 1 .5 1e-3\nillum +02\nmap_d x\n" : Out _ (Mtl.MaterialSet Bytes)) = none := by
    decide +kernel
  rcases Mtl.parse_total (F := Bytes) b!"newmtl a\nKd 1 .5 1e-3\nillum +02\nmap_d x\n" with hr | ⟨e, he⟩
  · exact hr
  · rw [he] at h; cases h

end Verif.Props
