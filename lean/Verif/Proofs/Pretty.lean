import Verif.Model.Pretty
import Verif.Proofs.Debug

/-!
# Reading back a `{:#?}` text
-/

namespace Verif.Pretty

open Verif Verif.Spec
open Verif.Debug (Link Code Starts split_at stops Stop link_field)

/-- Whether the character behind a text is the first of a line. -/
def after (newline : Bool) : Text → Bool
  | [] => newline
  | c :: s => after (c == '\n') s

theorem after_append (b : Bool) (s t : Text) : after b (s ++ t) = after (after b s) t := by
  induction s generalizing b with
  | nil => rfl
  | cons c s ih => exact ih _

theorem padFrom_append (b : Bool) (s t : Text) : padFrom b (s ++ t) = padFrom b s ++ padFrom (after b s) t := by
  induction s generalizing b with
  | nil => rfl
  | cons c s ih =>
    rw [List.cons_append, padFrom, padFrom, ih, after, List.append_assoc, List.cons_append]

/-- Indented lines end where a line begins without a space. -/
theorem padFrom_cut (b : Bool) {v w s t : Text} {c d : Char} (hv : after b v = true) (hw : after b w = true)
    (hc : c ≠ ' ') (hd : d ≠ ' ') (e : padFrom b v ++ c :: s = padFrom b w ++ d :: t) : v = w ∧ c :: s = d :: t := by
  induction v generalizing b w with
  | nil =>
    cases w with
    | nil => exact ⟨rfl, e⟩
    | cons y w =>
      obtain rfl : b = true := hv
      exact absurd (List.cons.inj e).1 hc
  | cons x v ih =>
    cases w with
    | nil =>
      obtain rfl : b = true := hw
      exact absurd (List.cons.inj e).1.symm hd
    | cons y w =>
      rw [padFrom, padFrom, List.append_assoc, List.append_assoc] at e
      obtain ⟨rfl, e1⟩ := List.cons.inj (List.append_cancel_left e)
      obtain ⟨rfl, e2⟩ := ih _ hv hw e1
      exact ⟨rfl, e2⟩

/-- The lines of several values, before they are indented. -/
def rows (v : List Text) : Text := v.flatMap fun v => v ++ c!",\n"

theorem after_row (b : Bool) (v : Text) : after b (v ++ c!",\n") = true := by
  rw [after_append]; rfl

theorem after_rows (v : List Text) : after true (rows v) = true := by
  induction v with
  | nil => rfl
  | cons a v ih => rw [rows, List.flatMap_cons, after_append, after_row]; exact ih

theorem entries (v : List Text) : v.flatMap entry = padFrom true (rows v) := by
  induction v with
  | nil => rfl
  | cons a v ih =>
    rw [rows, List.flatMap_cons, List.flatMap_cons, padFrom_append, after_row, ih]; rfl

/-- The rows of two lists of values are the same only if `P`. -/
def Rows (v w : List Text) (P : Prop) : Prop := rows v = rows w → P

theorem stop_row (s : Text) : Stop (c!",\n" ++ s) := by
  intro d hd
  obtain rfl : ',' = d := by simpa using hd
  decide

theorem Rows.one {v w : Text} {P : Prop} (h : Link v w P) : Rows [v] [w] P := by
  intro e
  simp only [rows, List.flatMap_cons, List.append_assoc] at e
  exact (h _ _ (stop_row _) (stop_row _) e).1

theorem Rows.cons {v w a b : Text} {r r' : List Text} {P Q : Prop} (h : Link v w P) (h' : Rows (a :: r) (b :: r') Q) :
    Rows (v :: a :: r) (w :: b :: r') (P ∧ Q) := by
  intro e
  simp only [rows] at e
  rw [List.flatMap_cons, List.flatMap_cons (x := w), List.append_assoc, List.append_assoc] at e
  obtain ⟨hp, e⟩ := h _ _ (stop_row _) (stop_row _) e
  exact ⟨hp, h' (List.append_cancel_left e)⟩

/-- `Rows` for the texts of fields. -/
def FieldRows (f g : List (Text × Text)) (P : Prop) : Prop :=
  Rows (f.map fun f => f.1 ++ c!": " ++ f.2) (g.map fun f => f.1 ++ c!": " ++ f.2) P

theorem FieldRows.one {n v w : Text} {P : Prop} (h : Link v w P) : FieldRows [(n, v)] [(n, w)] P := Rows.one (link_field h)

theorem FieldRows.cons {n v w : Text} {a b : Text × Text} {r r' : List (Text × Text)} {P Q : Prop} (h : Link v w P)
    (h' : FieldRows (a :: r) (b :: r') Q) : FieldRows ((n, v) :: a :: r) ((n, w) :: b :: r') (P ∧ Q) :=
  Rows.cons (link_field h) h'

theorem field_entries (f : List (Text × Text)) : f.flatMap (fun f => entry (f.1 ++ c!": " ++ f.2)) =
    padFrom true (rows (f.map fun f => f.1 ++ c!": " ++ f.2)) := by
  rw [← entries, List.flatMap_map]

theorem pretty_struct {name : Text} {f g : List (Text × Text)} {P : Prop} (h : FieldRows f g P) :
    Link (struct name f) (struct name g) P := by
  intro s t _ _ e
  rw [struct, struct, field_entries, field_entries, List.append_assoc, List.append_assoc, List.append_assoc _ _ t,
    List.append_assoc _ _ (_ ++ t)] at e
  obtain ⟨e1, e2⟩ := padFrom_cut (c := '}') (d := '}') true (after_rows _) (after_rows _) (by decide) (by decide)
    (List.append_cancel_left e)
  exact ⟨h e1, (List.cons.inj e2).2⟩

theorem pretty_tuple {n m : Text} {v w : List Text} {P : Prop} (hn : '(' ∉ n) (hm : '(' ∉ m)
    (h : n = m → Rows v w P) : Link (tuple n v) (tuple m w) P := by
  intro s t _ _ e
  simp only [tuple, entries, List.append_assoc, List.cons_append, List.nil_append] at e
  obtain ⟨rfl, e'⟩ := split_at hn hm e
  obtain ⟨e1, e2⟩ := padFrom_cut true (after_rows _) (after_rows _) (by decide) (by decide) (List.cons.inj e').2
  exact ⟨h rfl e1, (List.cons.inj e2).2⟩

theorem pretty_vec {α : Type} {value : α → Text} {Ok : α → Prop} (h : Code value Ok) :
    Code (vec value) (fun l => ∀ a ∈ l, Ok a) := by
  refine ⟨?_, fun _ => ⟨_, _, rfl, by decide⟩⟩
  have key : ∀ (a b : List α), (∀ x ∈ a, Ok x) → (∀ x ∈ b, Ok x) → rows (a.map value) = rows (b.map value) → a = b := by
    have ne : ∀ (x : α) (l : List α), rows ((x :: l).map value) ≠ [] := fun x l => by simp [rows]
    intro a
    induction a with
    | nil =>
      intro b _ _ e
      cases b with
      | nil => rfl
      | cons y b => exact absurd e.symm (ne y b)
    | cons x a ih =>
      intro b ha hb e
      cases b with
      | nil => exact absurd e (ne x a)
      | cons y b =>
        simp only [rows, List.map_cons, List.flatMap_cons, List.append_assoc] at e
        obtain ⟨rfl, e'⟩ := h.link (ha x List.mem_cons_self) (hb y List.mem_cons_self) _ _ (stop_row _) (stop_row _) e
        rw [ih b (fun x hx => ha x (List.mem_cons_of_mem _ hx)) (fun x hx => hb x (List.mem_cons_of_mem _ hx))
          (List.append_cancel_left e')]
  intro a b ha hb s t _ _ e
  have he : ∀ l : List α, l.flatMap (fun a => entry (value a)) = padFrom true (rows (l.map value)) := fun l => by
    rw [← entries, List.flatMap_map]
  simp only [vec, he, List.append_assoc] at e
  replace e := (List.cons.inj e).2
  cases a with
  | nil =>
    cases b with
    | nil => exact ⟨rfl, (List.cons.inj e).2⟩
    | cons y b => exact absurd (List.cons.inj e).1 (by decide)
  | cons x a =>
    cases b with
    | nil => exact absurd (List.cons.inj e).1 (by decide)
    | cons y b =>
      obtain ⟨e1, e2⟩ := padFrom_cut true (after_rows _) (after_rows _) (by decide) (by decide) (List.cons.inj e).2
      exact ⟨key _ _ ha hb e1, (List.cons.inj e2).2⟩

theorem pretty_option {α : Type} {value : α → Text} {Ok : α → Prop} (h : Code value Ok) :
    Code (option value) (fun l => ∀ a ∈ l, Ok a) := by
  constructor
  · intro a b ha hb
    cases a with
    | none =>
      cases b with
      | none => exact fun s t _ _ e => ⟨rfl, List.append_cancel_left e⟩
      | some b => intro s t _ _ e; exact absurd (List.cons.inj e).1 (by decide)
    | some a =>
      cases b with
      | none => intro s t _ _ e; exact absurd (List.cons.inj e).1 (by decide)
      | some b =>
        exact pretty_tuple (by decide) (by decide) fun _ => .one ((h.link (ha a rfl) (hb b rfl)).imp (congrArg some))
  · intro a _
    cases a
    · exact ⟨_, _, rfl, by decide⟩
    · exact ⟨_, _, rfl, by decide⟩

end Verif.Pretty
