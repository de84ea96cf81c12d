import Verif.Model.Checked
import Verif.Proofs.SimObj
import Verif.Proofs.Sim

/-!
# The machine arithmetic of the OBJ parser never overflows

On a list of tokens, the checked and the plain parser are run side by side; every
counter is at most the number of tokens consumed so far, plus one.
-/

namespace Verif.Obj.Checked

open Verif Verif.Obj

/-- The two outcomes agree, the states are the same, no token comes back. -/
inductive ORel {K α β : Type} (n : Nat) (r : β → α → List Tok → Prop) :
    Out K β × PState (List Tok) → Out K α × PState (List Tok) → Prop
  | ok {a b s} : s.lexer.length ≤ n → r b a s.lexer → ORel n r (.ok b, s) (.ok a, s)
  | err {e s} : s.lexer.length ≤ n → ORel n r (.err e, s) (.err e, s)
  | panic {x s} : ORel n r (.panic x, s) (.panic x, s)
  | fuel {s} : ORel n r (.outOfFuel, s) (.outOfFuel, s)

/-- `q` (with machine arithmetic) does on `toks` what `p` does. -/
def Rel {K α β : Type} (q : P (List Tok) K β) (p : P (List Tok) K α) (toks : List Tok)
    (r : β → α → List Tok → Prop) : Prop :=
  ∀ line, ORel toks.length r (q ⟨line, toks⟩) (p ⟨line, toks⟩)

section
variable {K α β γ δ : Type} {toks : List Tok}

theorem Rel.pure {r : β → α → List Tok → Prop} {b : β} {a : α} (h : r b a toks) :
    Rel (Pure.pure b : P _ K _) (Pure.pure a : P _ K _) toks r := fun _ => .ok (Nat.le_refl _) h

theorem Rel.error {r : β → α → List Tok → Prop} (k : K) (m : Bytes) :
    Rel (P.error k m : P _ K β) (P.error k m : P _ K α) toks r := fun _ => .err (Nat.le_refl _)

theorem Rel.panic {r : β → α → List Tok → Prop} (x : PanicSite) :
    Rel (P.panic x : P _ K β) (P.panic x : P _ K α) toks r := fun _ => .panic

theorem Rel.outOfFuel {r : β → α → List Tok → Prop} :
    Rel (P.outOfFuel : P _ K β) (P.outOfFuel : P _ K α) toks r := fun _ => .fuel

theorem Rel.bind {q : P (List Tok) K β} {p : P (List Tok) K α} {g : β → P (List Tok) K δ}
    {f : α → P (List Tok) K γ} {r : β → α → List Tok → Prop} {r' : δ → γ → List Tok → Prop}
    (h : Rel q p toks r)
    (hf : ∀ b a rest, rest.length ≤ toks.length → r b a rest → Rel (g b) (f a) rest r') :
    Rel (q >>= g) (p >>= f) toks r' := by
  intro line
  have h1 := h line
  show ORel _ _ (P.bind q g _) (P.bind p f _)
  unfold P.bind
  generalize q ⟨line, toks⟩ = x at h1
  generalize p ⟨line, toks⟩ = y at h1
  cases h1 with
  | @ok a b s hl hr =>
    have h2 := hf b a s.lexer hl hr s.line_number
    dsimp only
    have es : (⟨s.line_number, s.lexer⟩ : PState (List Tok)) = s := rfl
    rw [es] at h2
    generalize g b s = x at h2
    generalize f a s = y at h2
    cases h2 with
    | ok h3 h4 => exact .ok (Nat.le_trans h3 hl) h4
    | err h3 => exact .err (Nat.le_trans h3 hl)
    | panic => exact .panic
    | fuel => exact .fuel
  | err hl => exact .err hl
  | panic => exact .panic
  | fuel => exact .fuel

theorem Rel.bind_left {q : P (List Tok) K β} {p : P (List Tok) K α} {g : β → P (List Tok) K δ}
    {r : β → α → List Tok → Prop} {r' : δ → α → List Tok → Prop} (h : Rel q p toks r)
    (hf : ∀ b a rest, rest.length ≤ toks.length → r b a rest → Rel (g b) (Pure.pure a) rest r') :
    Rel (q >>= g) p toks r' := by
  have e : p = p >>= Pure.pure := by
    funext s
    show _ = P.bind _ _ _
    unfold P.bind
    split <;> rename_i h <;> rw [h]
    rfl
  rw [e]
  exact Rel.bind h hf

theorem Rel.attempt {q : P (List Tok) K α} {p : P (List Tok) K α} {r : α → α → List Tok → Prop}
    (h : Rel q p toks r) :
    Rel (P.attempt q) (P.attempt p) toks fun b a rest =>
      (∃ x y, b = .ok x ∧ a = .ok y ∧ r x y rest) ∨ ∃ e, b = .error e ∧ a = .error e := by
  intro line
  have h1 := h line
  unfold P.attempt
  generalize q ⟨line, toks⟩ = x at h1
  generalize p ⟨line, toks⟩ = y at h1
  cases h1 with
  | ok hl hr => exact .ok hl (.inl ⟨_, _, rfl, rfl, hr⟩)
  | err hl => exact .ok hl (.inr ⟨_, rfl, rfl⟩)
  | panic => exact .panic
  | fuel => exact .fuel

theorem Rel.mono {q : P (List Tok) K β} {p : P (List Tok) K α} {r r' : β → α → List Tok → Prop}
    (h : Rel q p toks r) (hr : ∀ b a rest, rest.length ≤ toks.length → r b a rest → r' b a rest) :
    Rel q p toks r' := by
  intro line
  have h1 := h line
  generalize q ⟨line, toks⟩ = x at h1
  generalize p ⟨line, toks⟩ = y at h1
  cases h1 with
  | ok hl h2 => exact .ok hl (hr _ _ _ hl h2)
  | err hl => exact .err hl
  | panic => exact .panic
  | fuel => exact .fuel

theorem Rel.ite {c : Prop} [Decidable c] {q q' : P (List Tok) K β} {p p' : P (List Tok) K α}
    {r : β → α → List Tok → Prop} (h : c → Rel q p toks r) (h' : ¬ c → Rel q' p' toks r) :
    Rel (if c then q else q') (if c then p else p') toks r := by
  split
  · exact h ‹_›
  · exact h' ‹_›

theorem Rel.lift {o : Out K α} {r : α → α → List Tok → Prop} (h : ∀ a, o = .ok a → r a a toks) :
    Rel (P.lift o) (P.lift o) toks r := by
  intro line
  unfold P.lift
  cases o with
  | ok a => exact .ok (Nat.le_refl _) (h a rfl)
  | err e => exact .err (Nat.le_refl _)
  | panic => exact .panic
  | outOfFuel => exact .fuel

theorem Rel.peek : Rel (P.peek : P _ K _) P.peek toks fun b a rest => b = a ∧ a = toks.head? ∧ rest = toks :=
  fun _ => .ok (Nat.le_refl _) ⟨rfl, rfl, rfl⟩

theorem Rel.next : Rel (P.next : P _ K _) P.next toks fun b a rest => b = a ∧ a = toks.head? ∧ rest = toks.tail :=
  fun _ => .ok (by simp [TokStream.next]) ⟨rfl, rfl, rfl⟩

/-- Some token is consumed. -/
theorem Rel.next_some : Rel (P.next : P _ K _) P.next toks fun b a rest =>
    b = a ∧ (a = none ∨ rest.length + 1 ≤ toks.length) :=
  Rel.mono Rel.next fun b a rest _ ⟨h1, h2, h3⟩ => by
    refine ⟨h1, ?_⟩
    cases toks with
    | nil => exact .inl h2
    | cons t toks => right; rw [h3]; simp

end

theorem uadd_bind {α : Type} {cfg : Limits} {a b : Nat} (h : a + b ≤ cfg.limit) (f : Nat → OP (List Tok) α) :
    (uadd cfg a b >>= f) = f (a + b) := by
  unfold uadd
  rw [if_pos h]
  rfl

/-! ## Methods without counters -/

/-- The method gives no token back. -/
def Mono {α : Type} (p : OP (List Tok) α) : Prop := ∀ toks, Rel p p toks fun b a _ => b = a

/-- If it succeeds, it has consumed a token. -/
def Eats {α : Type} (p : OP (List Tok) α) : Prop :=
  ∀ toks, Rel p p toks fun b a rest => b = a ∧ rest.length + 1 ≤ toks.length

theorem Eats.mono {α : Type} {p : OP (List Tok) α} (h : Eats p) : Mono p :=
  fun toks => (h toks).mono fun _ _ _ _ h => h.1

theorem Mono.pure {α : Type} (a : α) : Mono (Pure.pure a) := fun _ => Rel.pure rfl
theorem Mono.error {α : Type} (k : ErrorKind) (m : Bytes) : Mono (P.error k m : OP _ α) := fun _ => Rel.error k m
theorem Mono.panic {α : Type} (x : PanicSite) : Mono (P.panic x : OP _ α) := fun _ => Rel.panic x
theorem Mono.outOfFuel {α : Type} : Mono (P.outOfFuel : OP _ α) := fun _ => Rel.outOfFuel
theorem Mono.peek : Mono P.peek := fun _ => Rel.peek.mono fun _ _ _ _ h => h.1
theorem Mono.next : Mono P.next := fun _ => Rel.next.mono fun _ _ _ _ h => h.1
theorem Mono.ofResult {α : Type} (x : Except (ParseError ErrorKind) α) : Mono (P.ofResult x) := by
  cases x with
  | ok a => exact fun _ _ => .ok (Nat.le_refl _) rfl
  | error e => exact fun _ _ => .err (Nat.le_refl _)
theorem Mono.bind {α β : Type} {p : OP (List Tok) α} {f : α → OP (List Tok) β} (h : Mono p)
    (hf : ∀ a, Mono (f a)) : Mono (p >>= f) :=
  fun toks => Rel.bind (h toks) fun b _ rest _ e => e ▸ hf b rest
theorem Mono.ite {α : Type} {c : Prop} [Decidable c] {p q : OP (List Tok) α} (h : Mono p) (h' : Mono q) :
    Mono (if c then p else q) := by
  split
  · exact h
  · exact h'
theorem Mono.attempt {α : Type} {p : OP (List Tok) α} (h : Mono p) : Mono (P.attempt p) :=
  fun toks => (h toks).attempt.mono fun b a _ _ h => by
    rcases h with ⟨x, y, rfl, rfl, rfl⟩ | ⟨e, rfl, rfl⟩ <;> rfl
theorem Eats.bind {α β : Type} {p : OP (List Tok) α} {f : α → OP (List Tok) β} (h : Eats p)
    (hf : ∀ a, Mono (f a)) : Eats (p >>= f) :=
  fun toks => Rel.bind (h toks) fun b _ rest _ h => h.1 ▸ (hf b rest).mono fun _ _ _ hl e =>
    ⟨e, by have := h.2; omega⟩

/-- Extensible list of lemmas. -/
syntax "mono_step" : tactic
macro_rules | `(tactic| mono_step) => `(tactic| exact Mono.pure _)
macro_rules | `(tactic| mono_step) => `(tactic| exact Mono.panic _)
macro_rules | `(tactic| mono_step) => `(tactic| exact Mono.error _ _)
macro_rules | `(tactic| mono_step) => `(tactic| exact Mono.outOfFuel)
macro_rules | `(tactic| mono_step) => `(tactic| exact Mono.ofResult _)
macro_rules | `(tactic| mono_step) => `(tactic| exact Mono.peek)
macro_rules | `(tactic| mono_step) => `(tactic| exact Mono.next)
macro "mono" : tactic => `(tactic|
  repeat' (first
    | with_reducible assumption
    | with_reducible refine Mono.attempt ?_
    | with_reducible refine Mono.bind ?_ ?_
    | with_reducible refine Mono.ite ?_ ?_
    | with_reducible mono_step
    | split
    | intro _))

theorem mono_advance : Mono P.advance := by unfold P.advance; mono
macro_rules | `(tactic| mono_step) => `(tactic| exact mono_advance)

theorem mono_skip_zero (n : Nat) : Mono (P.skip_zero_or_more_newlines n) := by
  induction n with
  | zero => exact Mono.outOfFuel
  | succ n ih => unfold P.skip_zero_or_more_newlines; mono
macro_rules | `(tactic| mono_step) => `(tactic| exact mono_skip_zero _)

theorem eats_next_string : Eats next_string := by
  unfold next_string
  intro toks
  refine Rel.bind Rel.next_some ?_
  rintro b _ rest hl ⟨rfl, h⟩
  cases b with
  | none => exact Rel.error _ _
  | some t =>
    refine Rel.pure ⟨rfl, ?_⟩
    simpa using h
macro_rules | `(tactic| mono_step) => `(tactic| exact eats_next_string.mono)

theorem eats_expect_tag (t : Tok) : Eats (expect_tag t) := by
  unfold expect_tag
  intro toks
  refine Rel.bind Rel.next_some ?_
  rintro b _ rest hl ⟨rfl, h⟩
  cases b with
  | none => exact Rel.error _ _
  | some u =>
    refine Rel.ite (fun _ => Rel.error _ _) (fun _ => Rel.pure ⟨rfl, ?_⟩)
    simpa using h
macro_rules | `(tactic| mono_step) => `(tactic| exact (eats_expect_tag _).mono)

section
variable {F : Type} [FloatSem F]

theorem mono_parse_f64 : Mono (parse_f64 : OP _ F) := by unfold parse_f64; mono
macro_rules | `(tactic| mono_step) => `(tactic| exact mono_parse_f64)

theorem eats_parse_isize : Eats parse_isize := by
  unfold parse_isize; exact Eats.bind eats_next_string fun _ => by mono
macro_rules | `(tactic| mono_step) => `(tactic| exact eats_parse_isize.mono)

theorem mono_try_once : Mono (try_once_f64 : OP _ (Option F)) := by unfold try_once_f64; mono
macro_rules | `(tactic| mono_step) => `(tactic| exact mono_try_once)

theorem eats_parse_vertex : Eats (parse_vertex : OP _ (Vertex F)) := by
  unfold parse_vertex; exact Eats.bind (eats_expect_tag _) fun _ => by mono
theorem eats_parse_texture_vertex : Eats (parse_texture_vertex : OP _ (TextureVertex F)) := by
  unfold parse_texture_vertex; exact Eats.bind (eats_expect_tag _) fun _ => by mono
theorem eats_parse_normal_vertex : Eats (parse_normal_vertex : OP _ (NormalVertex F)) := by
  unfold parse_normal_vertex; exact Eats.bind (eats_expect_tag _) fun _ => by mono

end

theorem mono_skip_one (n : Nat) : Mono (skip_one_or_more_newlines n) := by
  unfold skip_one_or_more_newlines; mono
macro_rules | `(tactic| mono_step) => `(tactic| exact mono_skip_one _)

theorem mono_parse_object_name (n : Nat) : Mono (parse_object_name n) := by
  unfold parse_object_name; mono
macro_rules | `(tactic| mono_step) => `(tactic| exact mono_parse_object_name _)

theorem mono_calculate_index (cfg : Cfg) (r : Nat × Nat) (v : Int) : Mono (calculate_index cfg r v) := by
  unfold calculate_index; mono
macro_rules | `(tactic| mono_step) => `(tactic| exact mono_calculate_index _ _ _)

theorem mono_process_split (cfg : Cfg) (b : Bytes) (r : Nat × Nat) : Mono (process_split cfg b r) := by
  unfold process_split; mono
macro_rules | `(tactic| mono_step) => `(tactic| exact mono_process_split _ _ _)

theorem mono_process_next_split (cfg : Cfg) (b : Option Bytes) (r : Nat × Nat) :
    Mono (process_next_split cfg b r) := by
  unfold process_next_split; mono
macro_rules | `(tactic| mono_step) => `(tactic| exact mono_process_next_split _ _ _)

theorem eats_parse_vtn_index (cfg : Cfg) (r : Ranges) : Eats (parse_vtn_index cfg r) := by
  unfold parse_vtn_index; exact Eats.bind eats_next_string fun _ => by mono

theorem eats_parse_smoothing_group (l : List SmoothingGroup) : Eats (parse_smoothing_group l) := by
  unfold parse_smoothing_group; exact Eats.bind (eats_expect_tag _) fun _ => by mono

theorem eats_parse_material_name (l : List (Option Bytes)) : Eats (parse_material_name l) := by
  unfold parse_material_name; exact Eats.bind (eats_expect_tag _) fun _ => by mono

/-! ## Methods with counters -/

theorem rel_vtn_indices (cfg : Limits) (r : Ranges) (fuel : Nat) (l : List VTNIndex) (n : Nat) (toks : List Tok)
    (h : n + toks.length ≤ cfg.limit) :
    Rel (parse_vtn_indices cfg r fuel l n) (Obj.parse_vtn_indices cfg r fuel l) toks
      fun b a rest => b.1 = a ∧ a.length + rest.length ≤ l.length + toks.length := by
  induction fuel generalizing l n toks with
  | zero => exact Rel.outOfFuel
  | succ fuel ih =>
    unfold parse_vtn_indices Obj.parse_vtn_indices
    refine Rel.bind (eats_parse_vtn_index cfg r toks).attempt ?_
    rintro b a rest hl (⟨x, y, rfl, rfl, rfl, hr⟩ | ⟨e, rfl, rfl⟩)
    · dsimp only
      rw [uadd_bind (by omega)]
      refine (ih _ _ rest (by omega)).mono ?_
      rintro b a rest' _ ⟨rfl, h'⟩
      refine ⟨rfl, ?_⟩
      simp only [List.length_append, List.length_cons, List.length_nil] at h'
      omega
    · exact Rel.pure ⟨rfl, by omega⟩

theorem rel_point_loop (cfg : Limits) (r : Nat × Nat) (fuel : Nat) (l : List Element) (n : Nat) (toks : List Tok)
    (h : n + toks.length ≤ cfg.limit) :
    Rel (parse_point_loop cfg r fuel l n) (Obj.parse_point_loop cfg r fuel l n) toks
      fun b a rest => b = a ∧ b.2 + rest.length ≤ n + toks.length := by
  induction fuel generalizing l n toks with
  | zero => exact Rel.outOfFuel
  | succ fuel ih =>
    unfold parse_point_loop Obj.parse_point_loop
    refine Rel.bind Rel.next_some ?_
    rintro b a rest hl ⟨rfl, hr⟩
    cases b with
    | none => exact Rel.pure ⟨rfl, by dsimp only; omega⟩
    | some t =>
      simp only [reduceCtorEq, false_or] at hr
      refine Rel.ite (fun _ => ?_) (fun _ => Rel.pure ⟨rfl, by dsimp only; omega⟩)
      cases parseIsize t with
      | some val =>
        refine Rel.bind (mono_calculate_index _ _ _ rest) ?_
        rintro b a rest' hl' rfl
        rw [uadd_bind (by omega)]
        refine (ih _ _ rest' (by omega)).mono ?_
        rintro b a rest'' _ ⟨rfl, h'⟩
        exact ⟨rfl, by omega⟩
      | none => exact Rel.error _ _

theorem rel_point (cfg : Limits) (r : Nat × Nat) (fuel : Nat) (l : List Element) (toks : List Tok)
    (h : toks.length ≤ cfg.limit) :
    Rel (parse_point cfg fuel l r) (Obj.parse_point cfg fuel l r) toks
      fun b a rest => b = a ∧ b.2 + rest.length + 1 ≤ toks.length := by
  unfold parse_point Obj.parse_point
  refine Rel.bind (eats_expect_tag _ _) ?_
  rintro _ _ rest hl ⟨-, h1⟩
  refine Rel.bind (eats_parse_isize _) ?_
  rintro _ v rest' hl' ⟨rfl, h2⟩
  refine Rel.bind (mono_calculate_index _ _ _ _) ?_
  rintro _ i rest'' hl'' rfl
  refine (rel_point_loop _ _ _ _ _ _ (by omega)).mono ?_
  rintro b a rest3 _ ⟨rfl, h3⟩
  exact ⟨rfl, by omega⟩

theorem lineSegments_count {es : List Element} {l : List VTNIndex} {res} (h : lineSegments es l = some res) :
    res.2 = l.length - 1 := by
  unfold lineSegments at h
  split at h
  · cases h
  · simp only [Option.bind_eq_bind, Option.bind_eq_some_iff] at h
    obtain ⟨_, _, h⟩ := h
    cases h
    rfl

theorem triangulate_count {es : List Element} {l : List VTNIndex} {res} (h : triangulate es l = some res) :
    res.2 = l.length - 2 := by
  unfold triangulate at h
  simp only [Option.bind_eq_bind, Option.bind_eq_some_iff] at h
  obtain ⟨_, _, h⟩ := h
  split at h
  · cases h
  · simp only [Option.bind_eq_some_iff] at h
    obtain ⟨_, _, h⟩ := h
    cases h
    rfl

theorem rel_line (cfg : Limits) (r : Ranges) (fuel : Nat) (l : List Element) (toks : List Tok)
    (h : toks.length ≤ cfg.limit) :
    Rel (parse_line cfg fuel l r) (Obj.parse_line cfg fuel l r) toks
      fun b a rest => b = a ∧ b.2 + rest.length + 1 ≤ toks.length := by
  unfold parse_line Obj.parse_line
  refine Rel.bind (eats_expect_tag _ _) ?_
  rintro _ _ rest hl ⟨-, h1⟩
  refine Rel.bind (eats_parse_vtn_index _ _ _) ?_
  rintro _ v rest' hl' ⟨rfl, h2⟩
  refine Rel.bind (eats_parse_vtn_index _ _ _) ?_
  rintro _ w rest'' hl'' ⟨rfl, h3⟩
  refine Rel.bind (rel_vtn_indices cfg r fuel _ 0 _ (by omega)) ?_
  rintro ⟨b, n⟩ a rest3 hl3 ⟨rfl, h4⟩
  refine Rel.ite (fun _ => Rel.error _ _) fun _ => ?_
  dsimp only at h4 ⊢
  cases hs : lineSegments l b with
  | none => exact Rel.panic _
  | some res =>
    refine Rel.pure ⟨rfl, ?_⟩
    rw [lineSegments_count hs]
    simp only [List.length_cons, List.length_nil] at h4
    omega

theorem rel_face (cfg : Limits) (r : Ranges) (fuel : Nat) (l : List Element) (toks : List Tok)
    (h : toks.length ≤ cfg.limit) :
    Rel (parse_face cfg fuel l r) (Obj.parse_face cfg fuel l r) toks
      fun b a rest => b = a ∧ b.2 + rest.length + 1 ≤ toks.length := by
  unfold parse_face Obj.parse_face
  refine Rel.bind (eats_expect_tag _ _) ?_
  rintro _ _ rest hl ⟨-, h1⟩
  refine Rel.bind (rel_vtn_indices cfg r fuel _ 0 _ (by omega)) ?_
  rintro ⟨b, n⟩ a rest3 hl3 ⟨rfl, h4⟩
  dsimp only at h4 ⊢
  refine Rel.ite (fun _ => Rel.error _ _) fun _ => ?_
  refine Rel.ite (fun _ => Rel.error _ _) fun _ => ?_
  cases hs : triangulate l b with
  | none => exact Rel.panic _
  | some res =>
    refine Rel.pure ⟨rfl, ?_⟩
    rw [triangulate_count hs]
    simp only [List.length_nil] at h4
    omega

theorem rel_elements (cfg : Limits) (r : Ranges) (fuel : Nat) (l : List Element) (toks : List Tok)
    (h : toks.length ≤ cfg.limit) :
    Rel (parse_elements cfg fuel l r) (Obj.parse_elements cfg fuel l r) toks
      fun b a rest => b = a ∧ b.2 + rest.length + 1 ≤ toks.length := by
  unfold parse_elements Obj.parse_elements
  refine Rel.bind Rel.peek ?_
  rintro b a rest hl ⟨rfl, -, rfl⟩
  refine Rel.ite (fun _ => rel_point _ _ _ _ _ h) fun _ => ?_
  refine Rel.ite (fun _ => rel_line _ _ _ _ _ h) fun _ => ?_
  exact Rel.ite (fun _ => rel_face _ _ _ _ _ h) fun _ => Rel.error _ _

theorem rel_groups_loop (cfg : Limits) (fuel : Nat) (l : List Group) (n : Nat) (toks : List Tok)
    (h : n + toks.length ≤ cfg.limit) :
    Rel (parse_groups_loop cfg fuel l n) (Obj.parse_groups_loop fuel l n) toks
      fun b a rest => b = a ∧ b.2 + rest.length ≤ n + toks.length := by
  induction fuel generalizing l n toks with
  | zero => exact Rel.outOfFuel
  | succ fuel ih =>
    unfold parse_groups_loop Obj.parse_groups_loop
    refine Rel.bind Rel.next_some ?_
    rintro b a rest hl ⟨rfl, hr⟩
    cases b with
    | none => exact Rel.pure ⟨rfl, by dsimp only; omega⟩
    | some t =>
      simp only [reduceCtorEq, false_or] at hr
      refine Rel.ite (fun _ => ?_) (fun _ => Rel.pure ⟨rfl, by dsimp only; omega⟩)
      rw [uadd_bind (by omega)]
      refine (ih _ _ rest (by omega)).mono ?_
      rintro b a rest'' _ ⟨rfl, h'⟩
      exact ⟨rfl, by omega⟩

theorem rel_groups (cfg : Limits) (fuel : Nat) (l : List Group) (toks : List Tok) (h : toks.length ≤ cfg.limit) :
    Rel (parse_groups cfg fuel l) (Obj.parse_groups fuel l) toks
      fun b a rest => b = a ∧ b.2 + rest.length + 1 ≤ toks.length := by
  unfold parse_groups Obj.parse_groups
  refine Rel.bind (eats_expect_tag _ _) ?_
  rintro _ _ rest hl ⟨-, h1⟩
  refine (rel_groups_loop _ _ _ _ _ (by omega)).mono ?_
  rintro b a rest'' _ ⟨rfl, h'⟩
  exact ⟨rfl, by omega⟩

/-! ## The main loop -/

macro "close_inv" : tactic => `(tactic|
  (constructor <;> (try dsimp only) <;>
    (try simp only [List.length_append, List.length_cons, List.length_nil]) <;> omega))

section
variable {F : Type} [FloatSem F]

/-- Every counter plus the number of remaining tokens is at most `N + 1`. -/
structure Inv (N : Nat) (st : ObjState F) (toks : List Tok) : Prop where
  len : toks.length ≤ N
  group : st.max_group_index + toks.length ≤ N + 1
  smoothing : st.smoothing_group_index + toks.length ≤ N + 1
  material : st.material_name_index + toks.length ≤ N + 1
  egroup : st.max_element_group_index + toks.length ≤ N + 1
  esmoothing : st.max_element_smoothing_group_index + toks.length ≤ N + 1
  ematerial : st.max_element_material_name_index + toks.length ≤ N + 1
  v : st.ctr.max_vertex_index + toks.length ≤ N + 1
  t : st.ctr.max_texture_index + toks.length ≤ N + 1
  n : st.ctr.max_normal_index + toks.length ≤ N + 1
  minv : st.ctr.min_vertex_index + st.vertices.length = st.ctr.max_vertex_index
  mint : st.ctr.min_texture_index + st.texture_vertices.length = st.ctr.max_texture_index
  minn : st.ctr.min_normal_index + st.normal_vertices.length = st.ctr.max_normal_index

variable {N : Nat} (cfg : Limits) (hN : N < cfg.limit) {st : ObjState F} {toks : List Tok} (hi : Inv N st toks)

omit [FloatSem F] in
include hi in
theorem Inv.shrink {rest : List Tok} (h : rest.length ≤ toks.length) : Inv N st rest := by
  obtain ⟨h1, h2, h3, h4, h5, h6, h7, h8, h9, h10, h11, h12, h13⟩ := hi
  close_inv

omit [FloatSem F] in
include hi in
theorem Inv.fill : Inv N (fillDefaults st) toks := by
  have h (x : ObjState F) (c : Bool) (y : ObjState F) (hx : Inv N x toks) (hy : Inv N x toks → Inv N y toks) :
      Inv N (if c then y else x) toks := by
    split
    · exact hy hx
    · exact hx
  unfold fillDefaults
  refine h _ _ _ (h _ _ _ (h _ _ _ hi ?_) ?_) ?_
  all_goals
    rintro ⟨h1, h2, h3, h4, h5, h6, h7, h8, h9, h10, h11, h12, h13⟩
    close_inv

include hN hi

omit [FloatSem F] in
theorem rel_step_g (fuel : Nat) : Rel (step_g cfg fuel st) (Obj.step_g fuel st) toks
    fun b a rest => b = a ∧ Inv N b rest := by
  obtain ⟨h1, h2, h3, h4, h5, h6, h7, h8, h9, h10, h11, h12, h13⟩ := hi
  unfold step_g Obj.step_g
  refine Rel.ite (fun _ => ?_) fun _ => ?_
  all_goals
    refine Rel.bind (rel_groups _ _ _ _ (by omega)) ?_
    rintro b a rest hl ⟨rfl, h⟩
    rw [uadd_bind (by omega)]
    refine Rel.pure ⟨rfl, ?_⟩
    close_inv

omit [FloatSem F] in
theorem rel_step_s : Rel (step_s cfg st) (Obj.step_s st) toks fun b a rest => b = a ∧ Inv N b rest := by
  obtain ⟨h1, h2, h3, h4, h5, h6, h7, h8, h9, h10, h11, h12, h13⟩ := hi
  unfold step_s Obj.step_s
  refine Rel.ite (fun _ => ?_) fun _ => ?_
  · refine Rel.bind (eats_parse_smoothing_group _ _) ?_
    rintro b a rest hl ⟨rfl, h⟩
    refine Rel.pure ⟨rfl, ?_⟩
    close_inv
  · refine Rel.bind (eats_parse_smoothing_group _ _) ?_
    rintro b a rest hl ⟨rfl, h⟩
    rw [uadd_bind (by omega)]
    refine Rel.pure ⟨rfl, ?_⟩
    close_inv

omit [FloatSem F] in
theorem rel_step_usemtl : Rel (step_usemtl cfg st) (Obj.step_usemtl st) toks
    fun b a rest => b = a ∧ Inv N b rest := by
  unfold step_usemtl Obj.step_usemtl
  refine Rel.bind (r := fun b a rest => b = a ∧ Inv N b rest) ?_ ?_
  · obtain ⟨h1, h2, h3, h4, h5, h6, h7, h8, h9, h10, h11, h12, h13⟩ := hi
    refine Rel.ite (fun _ => Rel.ite (fun _ => ?_) fun _ => ?_) fun _ => Rel.ite (fun _ => ?_) fun _ => ?_
    all_goals
      refine Rel.bind (eats_parse_material_name _ _) ?_
      rintro b a rest hl ⟨rfl, h⟩
      try rw [uadd_bind (by omega)]
      refine Rel.pure ⟨rfl, ?_⟩
      close_inv
  · rintro b a rest hl ⟨rfl, h⟩
    refine Rel.pure ⟨rfl, ?_⟩
    obtain ⟨h1, h2, h3, h4, h5, h6, h7, h8, h9, h10, h11, h12, h13⟩ := h
    close_inv

theorem rel_step_v : Rel (step_v cfg st) (Obj.step_v st) toks fun b a rest => b = a ∧ Inv N b rest := by
  obtain ⟨h1, h2, h3, h4, h5, h6, h7, h8, h9, h10, h11, h12, h13⟩ := hi
  unfold step_v Obj.step_v
  refine Rel.bind (eats_parse_vertex _) ?_
  rintro b a rest hl ⟨rfl, h⟩
  rw [uadd_bind (by omega)]
  refine Rel.pure ⟨rfl, ?_⟩
  close_inv

theorem rel_step_vt : Rel (step_vt cfg st) (Obj.step_vt st) toks fun b a rest => b = a ∧ Inv N b rest := by
  obtain ⟨h1, h2, h3, h4, h5, h6, h7, h8, h9, h10, h11, h12, h13⟩ := hi
  unfold step_vt Obj.step_vt
  refine Rel.bind (eats_parse_texture_vertex _) ?_
  rintro b a rest hl ⟨rfl, h⟩
  rw [uadd_bind (by omega)]
  refine Rel.pure ⟨rfl, ?_⟩
  close_inv

theorem rel_step_vn : Rel (step_vn cfg st) (Obj.step_vn st) toks fun b a rest => b = a ∧ Inv N b rest := by
  obtain ⟨h1, h2, h3, h4, h5, h6, h7, h8, h9, h10, h11, h12, h13⟩ := hi
  unfold step_vn Obj.step_vn
  refine Rel.bind (eats_parse_normal_vertex _) ?_
  rintro b a rest hl ⟨rfl, h⟩
  rw [uadd_bind (by omega)]
  refine Rel.pure ⟨rfl, ?_⟩
  close_inv

omit [FloatSem F] in
theorem rel_step_element (fuel : Nat) : Rel (step_element cfg fuel st) (Obj.step_element cfg fuel st) toks
    fun b a rest => b = a ∧ Inv N b rest := by
  unfold step_element Obj.step_element
  have hi' := hi.fill
  generalize fillDefaults st = st' at hi'
  obtain ⟨h1, h2, h3, h4, h5, h6, h7, h8, h9, h10, h11, h12, h13⟩ := hi'
  dsimp only
  refine Rel.bind (rel_elements _ _ _ _ _ (by omega)) ?_
  rintro b a rest hl ⟨rfl, h⟩
  rw [uadd_bind (by omega), uadd_bind (by omega), uadd_bind (by omega)]
  refine Rel.pure ⟨rfl, ?_⟩
  close_inv

theorem rel_object_loop (fuel0 fuel : Nat) :
    Rel (object_loop cfg fuel0 fuel st) (Obj.object_loop cfg fuel0 fuel st) toks
      fun b a rest => b = a ∧ Inv N b rest := by
  induction fuel generalizing st toks with
  | zero => exact Rel.outOfFuel
  | succ fuel ih =>
    have close : Inv N (closeTables st) toks := by
      obtain ⟨h1, h2, h3, h4, h5, h6, h7, h8, h9, h10, h11, h12, h13⟩ := hi
      constructor <;> assumption
    unfold object_loop Obj.object_loop
    refine Rel.bind Rel.peek ?_
    rintro b a rest hl ⟨rfl, -, rfl⟩
    cases b with
    | none => exact Rel.pure ⟨rfl, close⟩
    | some t =>
      have next : ∀ (b a : ObjState F) (rest' : List Tok), rest'.length ≤ rest.length → (b = a ∧ Inv N b rest') →
          Rel (object_loop cfg fuel0 fuel b) (Obj.object_loop cfg fuel0 fuel a) rest'
            fun b a rest => b = a ∧ Inv N b rest := by
        rintro b a rest' _ ⟨rfl, h⟩
        exact ih h
      dsimp only
      refine Rel.ite (fun _ => Rel.bind (rel_step_g cfg hN hi fuel0) next) fun _ => ?_
      refine Rel.ite (fun _ => Rel.bind (rel_step_s cfg hN hi) next) fun _ => ?_
      refine Rel.ite (fun _ => Rel.bind (rel_step_usemtl cfg hN hi) next) fun _ => ?_
      refine Rel.ite (fun _ => Rel.bind (rel_step_v cfg hN hi) next) fun _ => ?_
      refine Rel.ite (fun _ => Rel.bind (rel_step_vt cfg hN hi) next) fun _ => ?_
      refine Rel.ite (fun _ => Rel.bind (rel_step_vn cfg hN hi) next) fun _ => ?_
      refine Rel.ite (fun _ => Rel.bind (rel_step_element cfg hN hi fuel0) next) fun _ => ?_
      refine Rel.ite (fun _ => Rel.bind (mono_skip_one fuel0 rest) ?_) fun _ => ?_
      · rintro _ _ rest' hl' -
        exact ih (hi.shrink hl')
      · exact Rel.ite (fun _ => Rel.pure ⟨rfl, close⟩) fun _ => Rel.error _ _

end

/-! ## Objects and files -/

section
variable {F : Type} [FloatSem F]

/-- The counters between two objects. -/
structure CInv (N : Nat) (c : Counters) (toks : List Tok) : Prop where
  len : toks.length ≤ N
  v : c.min_vertex_index = c.max_vertex_index
  t : c.min_texture_index = c.max_texture_index
  n : c.min_normal_index = c.max_normal_index
  v' : c.max_vertex_index + toks.length ≤ N + 1
  t' : c.max_texture_index + toks.length ≤ N + 1
  n' : c.max_normal_index + toks.length ≤ N + 1

variable {N : Nat} (cfg : Limits) (hN : N < cfg.limit)
include hN

omit [FloatSem F] hN in
theorem finishObject_ok {name : Tok} {st : ObjState F} {r} (h : finishObject cfg name st = .ok r) :
    r.2 = bumpCounters st := by
  unfold finishObject at h
  split at h <;> try cases h
  split at h <;> cases h
  rfl

theorem rel_object (fuel : Nat) {c : Counters} {toks : List Tok} (hc : CInv N c toks) :
    Rel (parse_object cfg fuel c) (Obj.parse_object cfg fuel c : OP _ (Object F × Counters)) toks
      fun b a rest => b = a ∧ CInv N b.2 rest := by
  unfold parse_object Obj.parse_object
  refine Rel.bind (mono_parse_object_name fuel toks) ?_
  rintro name _ rest hl rfl
  have hi : Inv N ({ ctr := c } : ObjState F) rest := by
    obtain ⟨h1, h2, h3, h4, h5, h6, h7⟩ := hc
    close_inv
  refine Rel.bind (rel_object_loop cfg hN hi fuel fuel) ?_
  rintro st _ rest' hl' ⟨rfl, h⟩
  refine Rel.bind_left (Rel.lift (r := fun (b a : Object F × Counters) rest'' => b = a ∧ b.2 = bumpCounters st ∧ rest'' = rest')
    fun a ha => ⟨rfl, finishObject_ok cfg ha, rfl⟩) ?_
  rintro r _ rest'' _ ⟨rfl, hr, rfl⟩
  obtain ⟨o, c'⟩ := r
  dsimp only at hr ⊢
  subst hr
  obtain ⟨h1, h2, h3, h4, h5, h6, h7, h8, h9, h10, h11, h12, h13⟩ := h
  rw [uadd_bind (by omega), uadd_bind (by omega), uadd_bind (by omega)]
  refine Rel.pure ⟨rfl, ?_⟩
  close_inv

theorem rel_objects_loop (fuel0 fuel : Nat) {c : Counters} {toks : List Tok} (hc : CInv N c toks)
    (acc : List (Object F)) :
    Rel (parse_objects_loop cfg fuel0 fuel c acc) (Obj.parse_objects_loop cfg fuel0 fuel c acc) toks
      fun b a _ => b = a := by
  induction fuel generalizing c toks acc with
  | zero => exact Rel.outOfFuel
  | succ fuel ih =>
    unfold parse_objects_loop Obj.parse_objects_loop
    refine Rel.bind Rel.peek ?_
    rintro b a rest hl ⟨rfl, -, rfl⟩
    cases b with
    | none => exact Rel.pure rfl
    | some t =>
      dsimp only
      refine Rel.bind (rel_object cfg hN fuel0 hc) ?_
      rintro r _ rest' hl' ⟨rfl, hc'⟩
      refine Rel.bind (mono_skip_zero fuel0 rest') ?_
      rintro _ _ rest'' hl'' -
      refine ih ?_ _
      obtain ⟨h1, h2, h3, h4, h5, h6, h7⟩ := hc'
      close_inv

theorem rel_objects (fuel : Nat) {toks : List Tok} (h : toks.length ≤ N) :
    Rel (parse_objects cfg fuel) (Obj.parse_objects cfg fuel : OP _ (List (Object F))) toks
      fun b a _ => b = a := by
  unfold parse_objects Obj.parse_objects
  refine Rel.bind (mono_skip_zero fuel _) ?_
  rintro _ _ rest hl -
  refine rel_objects_loop cfg hN fuel fuel ?_ _
  close_inv

omit [FloatSem F]
omit F hN in
theorem rel_mtllib_line_loop (fuel : Nat) (l : List Bytes) (n : Nat) (toks : List Tok)
    (h : n + toks.length ≤ cfg.limit) :
    Rel (mtllib_line_loop cfg fuel l n) (Obj.mtllib_line_loop fuel l) toks fun b a _ => b.1 = a := by
  induction fuel generalizing l n toks with
  | zero => exact Rel.outOfFuel
  | succ fuel ih =>
    unfold mtllib_line_loop Obj.mtllib_line_loop
    refine Rel.bind Rel.next_some ?_
    rintro b a rest hl ⟨rfl, hr⟩
    cases b with
    | none => exact Rel.pure rfl
    | some t =>
      simp only [reduceCtorEq, false_or] at hr
      refine Rel.ite (fun _ => ?_) (fun _ => Rel.pure rfl)
      rw [uadd_bind (by omega)]
      exact ih _ _ rest (by omega)

omit F in
theorem rel_mtllibs_loop (fuel0 fuel : Nat) (l : List Bytes) (toks : List Tok) (h : toks.length ≤ N) :
    Rel (mtllibs_loop cfg fuel0 fuel l) (Obj.mtllibs_loop fuel0 fuel l) toks fun b a _ => b = a := by
  induction fuel generalizing l toks with
  | zero => exact Rel.outOfFuel
  | succ fuel ih =>
    unfold mtllibs_loop Obj.mtllibs_loop
    refine Rel.bind Rel.peek ?_
    rintro b a rest hl ⟨rfl, -, rfl⟩
    refine Rel.ite (fun _ => ?_) fun _ => Rel.pure rfl
    refine Rel.bind (r := fun b a _ => b.1 = a) ?_ ?_
    · unfold parse_material_library_line Obj.parse_material_library_line
      refine Rel.bind (eats_expect_tag _ _) ?_
      rintro _ _ rest' hl' ⟨-, h1⟩
      exact rel_mtllib_line_loop cfg _ _ _ _ (by omega)
    · rintro ⟨m, n⟩ _ rest' hl' rfl
      refine Rel.bind (mono_skip_zero fuel0 rest') ?_
      rintro _ _ rest'' hl'' -
      exact ih _ _ (by omega)

theorem rel_objset [FloatSem F] (fuel : Nat) {toks : List Tok} (h : toks.length ≤ N) :
    Rel (parse_objset cfg fuel) (Obj.parse_objset cfg fuel : OP _ (ObjectSet F)) toks
      fun b a _ => b = a := by
  unfold parse_objset Obj.parse_objset
  refine Rel.bind (r := fun b a _ => b = a) ?_ ?_
  · unfold parse_material_libraries Obj.parse_material_libraries
    refine Rel.bind (mono_skip_zero fuel _) ?_
    rintro _ _ rest hl -
    exact rel_mtllibs_loop cfg hN _ _ _ _ (by omega)
  · rintro m _ rest hl rfl
    refine Rel.bind (rel_objects cfg hN fuel (by omega)) ?_
    rintro os _ rest' hl' rfl
    exact Rel.pure rfl

end

end Verif.Obj.Checked
