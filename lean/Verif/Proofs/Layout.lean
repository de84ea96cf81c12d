import Verif.Proofs.Pretty

/-!
# Lines and indentation of `{:#?}` texts
-/

namespace Verif.Spec.Layout

open Verif

/-- The characters that open a block. -/
def opening : Text := ['{', '(', '[']

/-- The characters that close a block. -/
def closing : Text := ['}', ')', ']']

/-- A text with something in it that does not begin with a space or the end of a block. -/
def Start (s : Text) : Prop := ∃ c r, s = c :: r ∧ c ≠ ' ' ∧ c ∉ closing

/-- `Indented d lines e`: on lines that begin at depth `d` and end at depth `e`, everything is indented by four
spaces for every block it is in.  A block is opened at the end of a line and closed at the beginning of another,
which ends there, up to a comma. -/
inductive Indented : Nat → List Text → Nat → Prop where
  | nil {d} : Indented d [] d
  | line {d e s c rest} : Start s → '\n' ∉ s → c ∉ opening → c ≠ '\n' → Indented d rest e →
      Indented d ((List.replicate (4 * d) ' ' ++ (s ++ [c])) :: rest) e
  | opens {d e s c rest} : Start (s ++ [c]) → '\n' ∉ s → c ∈ opening → Indented (d + 1) rest e →
      Indented d ((List.replicate (4 * d) ' ' ++ (s ++ [c])) :: rest) e
  | closes {d e c s rest} : c ∈ closing → (s = [] ∨ s = [',']) → Indented d rest e →
      Indented (d + 1) ((List.replicate (4 * d) ' ' ++ (c :: s)) :: rest) e

/-- Lines with their ends. -/
def unlines (l : List Text) : Text := l.flatMap (· ++ ['\n'])

end Verif.Spec.Layout

namespace Verif.Pretty

open Verif Verif.Spec Verif.Spec.Layout

theorem Indented.append {d e f : Nat} {a b : List Text} (h : Indented d a e) (h' : Indented e b f) :
    Indented d (a ++ b) f := by
  induction h with
  | nil => exact h'
  | line h1 h2 h3 h4 _ ih => exact .line h1 h2 h3 h4 (ih h')
  | opens h1 h2 h3 _ ih => exact .opens h1 h2 h3 (ih h')
  | closes h1 h2 _ ih => exact .closes h1 h2 (ih h')

theorem unlines_append (a b : List Text) : unlines (a ++ b) = unlines a ++ unlines b := List.flatMap_append

theorem padFrom_false {l : Text} (h : '\n' ∉ l) (t : Text) : padFrom false (l ++ '\n' :: t) = l ++ '\n' :: padFrom true t := by
  induction l with
  | nil => rfl
  | cons c l ih =>
    have hc : (c == '\n') = false := by
      rw [beq_eq_false_iff_ne]; rintro rfl; exact h List.mem_cons_self
    rw [List.cons_append, padFrom, hc, ih fun hl => h (List.mem_cons_of_mem _ hl)]
    rfl

theorem padFrom_line {l : Text} (h : '\n' ∉ l) (h' : l ≠ []) (t : Text) :
    padFrom true (l ++ '\n' :: t) = c!"    " ++ l ++ '\n' :: padFrom true t := by
  cases l with
  | nil => exact absurd rfl h'
  | cons c l =>
    have hc : (c == '\n') = false := by
      rw [beq_eq_false_iff_ne]; rintro rfl; exact h List.mem_cons_self
    rw [List.cons_append, padFrom, hc, padFrom_false fun hl => h (List.mem_cons_of_mem _ hl)]
    rfl

theorem four (d : Nat) (s : Text) :
    c!"    " ++ (List.replicate (4 * d) ' ' ++ s) = List.replicate (4 * (d + 1)) ' ' ++ s := by
  rw [← List.append_assoc]
  have : (c!"    " : Text) = List.replicate 4 ' ' := rfl
  rw [this, List.replicate_append_replicate]
  congr 2; omega

theorem line_clean {d : Nat} {s : Text} (h : '\n' ∉ s) : '\n' ∉ List.replicate (4 * d) ' ' ++ s := by
  rw [List.mem_append, not_or]
  exact ⟨fun hm => absurd (List.eq_of_mem_replicate hm) (by decide), h⟩

theorem pad_line {d : Nat} {s : Text} (h : '\n' ∉ s) (h' : s ≠ []) (rest : List Text)
    (ih : padFrom true (unlines rest) = unlines (rest.map (c!"    " ++ ·))) :
    padFrom true (unlines ((List.replicate (4 * d) ' ' ++ s) :: rest)) =
      unlines (((List.replicate (4 * d) ' ' ++ s) :: rest).map (c!"    " ++ ·)) := by
  have e : unlines ((List.replicate (4 * d) ' ' ++ s) :: rest) = (List.replicate (4 * d) ' ' ++ s) ++ '\n' :: unlines rest := by
    simp [unlines]
  rw [e, padFrom_line (line_clean h) (by simp [h']), ih]
  simp [unlines]

/-- Indenting lines adds one to their depth. -/
theorem Indented.shift {d e : Nat} {a : List Text} (h : Indented d a e) :
    Indented (d + 1) (a.map (c!"    " ++ ·)) (e + 1) ∧ padFrom true (unlines a) = unlines (a.map (c!"    " ++ ·)) := by
  induction h with
  | nil => exact ⟨.nil, rfl⟩
  | line h1 h2 h3 h4 _ ih =>
    refine ⟨?_, pad_line (by simp [h2, Ne.symm h4]) (by simp) _ ih.2⟩
    rw [List.map_cons, four]
    exact .line h1 h2 h3 h4 ih.1
  | opens h1 h2 h3 _ ih =>
    refine ⟨?_, pad_line ?_ (by simp) _ ih.2⟩
    · rw [List.map_cons, four]
      exact .opens h1 h2 h3 ih.1
    · rw [List.mem_append, List.mem_singleton, not_or]
      exact ⟨h2, by rintro rfl; exact absurd h3 (by decide)⟩
  | closes h1 h2 _ ih =>
    refine ⟨?_, pad_line ?_ (by simp) _ ih.2⟩
    · rw [List.map_cons, four]
      exact .closes h1 h2 ih.1
    · rw [List.mem_cons, not_or]
      exact ⟨by rintro rfl; exact absurd h1 (by decide), by rcases h2 with rfl | rfl <;> decide⟩

/-- A text of several lines: a block and what it is. -/
def Block (v : Text) : Prop := ∃ h o mid c, v = h ++ o :: '\n' :: (unlines mid ++ [c]) ∧ Start (h ++ [o]) ∧ '\n' ∉ h ∧
  o ∈ opening ∧ c ∈ closing ∧ Indented 1 mid 1

/-- The text of a value: on one line, or a block. -/
def Laid (v : Text) : Prop := Start v ∧ '\n' ∉ v ∨ Block v

/-- The lines of a block. -/
theorem Block.lines {v : Text} (h : Block v) : ∃ l, v ++ ['\n'] = unlines l ∧ Indented 0 l 0 := by
  obtain ⟨s, o, mid, c, rfl, h1, h2, h3, h4, h5⟩ := h
  refine ⟨(s ++ [o]) :: (mid ++ [[c]]), ?_, ?_⟩
  · rw [show (s ++ [o]) :: (mid ++ [[c]]) = [s ++ [o]] ++ (mid ++ [[c]]) from rfl, unlines_append, unlines_append]
    simp [unlines]
  · exact .opens (d := 0) h1 h2 h3 (Indented.append h5 (.closes (d := 0) h4 (.inl rfl) .nil))

theorem start_append {s : Text} (h : Start s) (t : Text) : Start (s ++ t) := by
  obtain ⟨c, r, rfl, h⟩ := h
  exact ⟨c, r ++ t, rfl, h⟩

/-- What stands before a value. -/
def Label (l : Text) : Prop := '\n' ∉ l ∧ (l = [] ∨ Start l)

theorem Label.start {l s : Text} (h : Label l) (h' : Start s) : Start (l ++ s) := by
  rcases h.2 with rfl | hl
  · exact h'
  · exact start_append hl s

/-- The lines of an entry. -/
theorem entry_lines {l v : Text} (hl : Label l) (h : Laid v) : ∃ ls, entry (l ++ v) = unlines ls ∧ Indented 1 ls 1 := by
  rcases h with ⟨h1, h2⟩ | ⟨s, o, mid, c, rfl, h1, h2, h3, h4, h5⟩
  · have h0 : Indented 0 [List.replicate (4 * 0) ' ' ++ ((l ++ v) ++ [','])] 0 :=
      .line (hl.start h1) (by simp [hl.1, h2]) (by decide) (by decide) .nil
    refine ⟨_, ?_, (Indented.shift h0).1⟩
    rw [← (Indented.shift h0).2]
    simp [entry, unlines]
  · have h0 : Indented 0 ((List.replicate (4 * 0) ' ' ++ ((l ++ s) ++ [o])) ::
        (mid ++ [List.replicate (4 * 0) ' ' ++ (c :: [','])])) 0 :=
      .opens (by rw [List.append_assoc]; exact hl.start h1) (by simp [hl.1, h2]) h3
        (Indented.append h5 (.closes h4 (.inr rfl) .nil))
    refine ⟨_, ?_, (Indented.shift h0).1⟩
    rw [← (Indented.shift h0).2]
    simp [entry, unlines]

theorem blocks_lines {α : Type} {f : α → Text} {l : List α} (h : ∀ a ∈ l, ∃ ls, f a = unlines ls ∧ Indented 1 ls 1) :
    ∃ ls, l.flatMap f = unlines ls ∧ Indented 1 ls 1 := by
  induction l with
  | nil => exact ⟨[], rfl, .nil⟩
  | cons a l ih =>
    obtain ⟨x, hx, hx'⟩ := h a List.mem_cons_self
    obtain ⟨y, hy, hy'⟩ := ih fun b hb => h b (List.mem_cons_of_mem _ hb)
    exact ⟨x ++ y, by rw [List.flatMap_cons, hx, hy, unlines_append], Indented.append hx' hy'⟩

theorem block_struct {name : Text} {f : List (Text × Text)} (hn : Start name) (hn' : '\n' ∉ name)
    (h : ∀ p ∈ f, (Start p.1 ∧ '\n' ∉ p.1) ∧ Laid p.2) : Block (struct name f) := by
  obtain ⟨ls, h1, h2⟩ := blocks_lines (f := fun p : Text × Text => entry (p.1 ++ c!": " ++ p.2)) (l := f) fun p hp => by
    obtain ⟨⟨a, b⟩, c⟩ := h p hp
    exact entry_lines ⟨by simp [b], .inr (start_append a _)⟩ c
  refine ⟨name ++ [' '], '{', ls, '}', ?_, start_append (start_append hn _) _, by simp [hn'], by decide, by decide, h2⟩
  rw [struct, h1]; simp

theorem block_tuple {name : Text} {v : List Text} (hn : Start name) (hn' : '\n' ∉ name) (h : ∀ x ∈ v, Laid x) :
    Block (tuple name v) := by
  obtain ⟨ls, h1, h2⟩ := blocks_lines (f := entry) (l := v) fun p hp => entry_lines (l := []) ⟨by simp, .inl rfl⟩ (h p hp)
  refine ⟨name, '(', ls, ')', ?_, start_append hn _, hn', by decide, by decide, h2⟩
  rw [tuple, h1]; simp

theorem laid_vec {α : Type} {value : α → Text} {l : List α} (h : ∀ a ∈ l, Laid (value a)) : Laid (vec value l) := by
  cases l with
  | nil => exact .inl ⟨⟨'[', [']'], rfl, by decide, by decide⟩, by simp [vec]⟩
  | cons a l =>
    obtain ⟨ls, h1, h2⟩ := blocks_lines (f := fun a => entry (value a)) (l := a :: l) fun p hp =>
      entry_lines (l := []) ⟨by simp, .inl rfl⟩ (h p hp)
    refine .inr ⟨[], '[', ls, ']', ?_, ⟨'[', [], rfl, by decide, by decide⟩, by simp, by decide, by decide, h2⟩
    rw [vec, h1]; simp

theorem laid_option {α : Type} {value : α → Text} {o : Option α} (h : ∀ a ∈ o, Laid (value a)) : Laid (option value o) := by
  cases o with
  | none => exact .inl ⟨⟨'N', _, rfl, by decide, by decide⟩, by simp [option]⟩
  | some a =>
    exact .inr (block_tuple ⟨'S', _, rfl, by decide, by decide⟩ (by decide) fun x hx => by
      rw [List.mem_singleton.mp hx]; exact h a rfl)

end Verif.Pretty
