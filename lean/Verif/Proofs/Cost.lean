import Verif.Model.Obj
import Verif.Model.Mtl
import Verif.Proofs.SimObj
import Verif.Proofs.SimMtl

/-!
# Counting the calls of the token source

A token source that counts how often it is asked, and an accounting method for parser methods
run on it: every token left is worth eight calls.
-/

namespace Verif

/-- A token source with a counter of the calls of `peek` and `next`. -/
structure CallCount (σ : Type) where
  src : σ
  calls : Nat

instance {σ : Type} [TokStream σ] : TokStream (CallCount σ) where
  peek s := ((TokStream.peek s.src).1, ⟨(TokStream.peek s.src).2, s.calls + 1⟩)
  next s := ((TokStream.next s.src).1, ⟨(TokStream.next s.src).2, s.calls + 1⟩)

/-- Counting does not disturb a bisimulation. -/
theorem Bisim.callCount {σ₁ σ₂ : Type} [TokStream σ₁] [TokStream σ₂] {R : σ₁ → σ₂ → Prop} (h : Bisim R) :
    Bisim fun (a : CallCount σ₁) (b : CallCount σ₂) => R a.src b.src ∧ a.calls = b.calls where
  peek a b hab := by
    have := h.peek _ _ hab.1
    exact ⟨this.1, this.2, congrArg (· + 1) hab.2⟩
  next a b hab := by
    have := h.next _ _ hab.1
    exact ⟨this.1, this.2, congrArg (· + 1) hab.2⟩

/-- Forgetting the counter. -/
theorem Bisim.forget {σ : Type} [TokStream σ] : Bisim fun (a : CallCount σ) (b : σ) => a.src = b where
  peek := by rintro a _ rfl; exact ⟨rfl, rfl⟩
  next := by rintro a _ rfl; exact ⟨rfl, rfl⟩

/-- Calls made plus calls that the tokens left are worth. -/
def spent (s : PState (CallCount (List Tok))) : Int := s.lexer.calls + 8 * (s.lexer.src.length : Int)

/-- Run where the next token satisfies `h`, the method raises `spent` by at most `f a` if it
returns `a` and by at most `e` if it ends otherwise. -/
structure Costs {K α : Type} (h : Option Tok → Prop) (p : P (CallCount (List Tok)) K α) (f : α → Int) (e : Int) :
    Prop where
  ok : ∀ s a s', h s.lexer.src.head? → p s = (.ok a, s') → spent s' ≤ spent s + f a
  other : ∀ s o s', h s.lexer.src.head? → p s = (o, s') → (∀ a, o ≠ .ok a) → spent s' ≤ spent s + e

section
variable {K α β γ : Type} {h : Option Tok → Prop} {f k : α → Int} {e e' : Int}

theorem Costs.weaken {h' : Option Tok → Prop} {p : P (CallCount (List Tok)) K α} (hp : Costs h' p f e)
    (hh : ∀ o, h o → h' o) (hf : ∀ a, f a ≤ k a) (he : e ≤ e') : Costs h p k e' where
  ok s a s' h1 h2 := by have := hp.ok s a s' (hh _ h1) h2; have := hf a; omega
  other s o s' h1 h2 h3 := by have := hp.other s o s' (hh _ h1) h2 h3; omega

theorem Costs.bind {p : P (CallCount (List Tok)) K β} {f : β → Int} {g : β → P (CallCount (List Tok)) K α}
    {e₀ : Int} (hp : Costs h p f e₀) (he : e₀ ≤ e)
    (hg : ∀ b, Costs (fun _ => True) (g b) (fun a => k a - f b) (e - f b)) : Costs h (p >>= g) k e where
  ok s a s' h1 h2 := by
    change P.bind p g s = _ at h2
    unfold P.bind at h2
    rcases hr : p s with ⟨o, s1⟩
    rw [hr] at h2
    cases o with
    | ok b =>
      have h3 := hp.ok s b s1 h1 hr
      have h4 := (hg b).ok s1 a s' trivial h2
      omega
    | err => cases h2
    | panic => cases h2
    | outOfFuel => cases h2
  other s o s' h1 h2 h3 := by
    change P.bind p g s = _ at h2
    unfold P.bind at h2
    rcases hr : p s with ⟨o', s1⟩
    rw [hr] at h2
    cases o' with
    | ok b =>
      have h4 := hp.ok s b s1 h1 hr
      have h5 := (hg b).other s1 o s' trivial h2 h3
      omega
    | err =>
      have := hp.other s _ s1 h1 hr (by simp)
      cases h2
      omega
    | panic =>
      have := hp.other s _ s1 h1 hr (by simp)
      cases h2
      omega
    | outOfFuel =>
      have := hp.other s _ s1 h1 hr (by simp)
      cases h2
      omega

theorem Costs.peek_bind {g : Option Tok → P (CallCount (List Tok)) K α}
    (hg : ∀ o, h o → Costs (fun o' => o' = o) (g o) (fun a => k a - 1) (e - 1)) : Costs h (P.peek >>= g) k e := by
  have run : ∀ s, (P.peek >>= g) s = g s.lexer.src.head? ⟨s.line_number, ⟨s.lexer.src, s.lexer.calls + 1⟩⟩ := fun s => rfl
  have hs : ∀ s : PState (CallCount (List Tok)), spent ⟨s.line_number, ⟨s.lexer.src, s.lexer.calls + 1⟩⟩ = spent s + 1 := by
    intro s
    simp only [spent]
    omega
  constructor
  · intro s a s' h1 h2
    rw [run] at h2
    have := (hg _ h1).ok _ a s' (by rfl) h2
    rw [hs] at this
    omega
  · intro s o s' h1 h2 h3
    rw [run] at h2
    have := (hg _ h1).other _ o s' (by rfl) h2 h3
    rw [hs] at this
    omega

theorem Costs.assoc {p : P (CallCount (List Tok)) K β} {g : β → P (CallCount (List Tok)) K γ}
    {g' : γ → P (CallCount (List Tok)) K α} (hp : Costs h (p >>= fun b => g b >>= g') k e) :
    Costs h ((p >>= g) >>= g') k e := by
  have : ((p >>= g) >>= g') = (p >>= fun b => g b >>= g') := by
    funext s
    change P.bind (P.bind p g) g' s = P.bind p (fun b => P.bind (g b) g') s
    simp only [P.bind]
    rcases p s with ⟨o, s1⟩
    cases o <;> rfl
  rw [this]
  exact hp

theorem Costs.pure_bind {b : β} {g : β → P (CallCount (List Tok)) K α} (hp : Costs h (g b) k e) :
    Costs h (Pure.pure b >>= g) k e := hp

theorem Costs.attempt_bind {p : P (CallCount (List Tok)) K β} {f : β → Int}
    {g : Except (ParseError K) β → P (CallCount (List Tok)) K α} {e₀ : Int} (hp : Costs h p f e₀) (he : e₀ ≤ e)
    (hg : ∀ b, Costs (fun _ => True) (g (.ok b)) (fun a => k a - f b) (e - f b))
    (hg' : ∀ r, Costs (fun _ => True) (g (.error r)) (fun a => k a - e₀) (e - e₀)) :
    Costs h (P.attempt p >>= g) k e where
  ok s a s' h1 h2 := by
    change P.bind (P.attempt p) g s = _ at h2
    unfold P.bind P.attempt at h2
    rcases hr : p s with ⟨o, s1⟩
    rw [hr] at h2
    cases o with
    | ok b =>
      have h3 := hp.ok s b s1 h1 hr
      have h4 := (hg b).ok s1 a s' trivial h2
      omega
    | err r =>
      have h3 := hp.other s _ s1 h1 hr (by simp)
      have h4 := (hg' r).ok s1 a s' trivial h2
      omega
    | panic => cases h2
    | outOfFuel => cases h2
  other s o s' h1 h2 h3 := by
    change P.bind (P.attempt p) g s = _ at h2
    unfold P.bind P.attempt at h2
    rcases hr : p s with ⟨o', s1⟩
    rw [hr] at h2
    cases o' with
    | ok b =>
      have h4 := hp.ok s b s1 h1 hr
      have h5 := (hg b).other s1 o s' trivial h2 h3
      omega
    | err r =>
      have h4 := hp.other s _ s1 h1 hr (by simp)
      have h5 := (hg' r).other s1 o s' trivial h2 h3
      omega
    | panic =>
      have := hp.other s _ s1 h1 hr (by simp)
      cases h2
      omega
    | outOfFuel =>
      have := hp.other s _ s1 h1 hr (by simp)
      cases h2
      omega

theorem Costs.pure {a : α} (ha : 0 ≤ k a) : Costs h (Pure.pure a : P (CallCount (List Tok)) K α) k e where
  ok s b s' _ h2 := by
    cases h2
    omega
  other s o s' _ h2 h3 := by
    cases h2
    exact absurd rfl (h3 a)

theorem Costs.still {p : P (CallCount (List Tok)) K α} (hp : ∀ s, (p s).2 = s) (hok : ∀ a, 0 ≤ k a) (he : 0 ≤ e) :
    Costs h p k e where
  ok s a s' _ h2 := by
    have := hp s
    rw [h2] at this
    dsimp only at this
    have := hok a
    subst s'
    omega
  other s o s' _ h2 _ := by
    have := hp s
    rw [h2] at this
    dsimp only at this
    subst s'
    omega

theorem Costs.stop {p : P (CallCount (List Tok)) K α} (hp : ∀ s, (p s).2 = s) (hno : ∀ s a, (p s).1 ≠ .ok a) (he : 0 ≤ e) :
    Costs h p k e where
  ok s a s' _ h2 := absurd (by rw [h2]) (hno s a)
  other s o s' _ h2 _ := by
    have := hp s
    rw [h2] at this
    dsimp only at this
    subst s'
    omega

theorem Costs.error {kind : K} {m : Bytes} (he : 0 ≤ e) : Costs h (P.error kind m : P (CallCount (List Tok)) K α) k e :=
  .stop (fun _ => rfl) (fun _ _ hx => by cases hx) he

theorem Costs.panic {x : PanicSite} (he : 0 ≤ e) : Costs h (P.panic x : P (CallCount (List Tok)) K α) k e :=
  .stop (fun _ => rfl) (fun _ _ hx => by cases hx) he

theorem Costs.outOfFuel (he : 0 ≤ e) : Costs h (P.outOfFuel : P (CallCount (List Tok)) K α) k e :=
  .stop (fun _ => rfl) (fun _ _ hx => by cases hx) he

theorem Costs.lift {o : Out K α} (hok : ∀ a, 0 ≤ k a) (he : 0 ≤ e) : Costs h (P.lift o : P (CallCount (List Tok)) K α) k e :=
  .still (fun _ => rfl) hok he

theorem Costs.ofResult {r : Except (ParseError K) α} (hok : ∀ a, 0 ≤ k a) (he : 0 ≤ e) :
    Costs h (P.ofResult r : P (CallCount (List Tok)) K α) k e :=
  .still (by cases r <;> exact fun _ => rfl) hok he

theorem Costs.ite {c : Prop} [Decidable c] {p q : P (CallCount (List Tok)) K α} (hp : c → Costs h p k e)
    (hq : ¬ c → Costs h q k e) : Costs h (if c then p else q) k e := by
  split
  · exact hp ‹_›
  · exact hq ‹_›

/-- The gain of `next`. -/
def nextCost : Option Tok → Int
  | some _ => -7
  | none => 1

theorem cost_next : Costs h (P.next : P (CallCount (List Tok)) K (Option Tok)) nextCost 0 where
  ok s a s' _ h2 := by
    obtain ⟨line, ⟨src, calls⟩⟩ := s
    cases src with
    | nil =>
      cases h2
      simp only [spent, nextCost, TokStream.next, List.tail_nil, List.head?_nil]
      omega
    | cons t src =>
      cases h2
      simp only [spent, nextCost, TokStream.next, List.tail_cons, List.head?_cons, List.length_cons]
      omega
  other s o s' _ h2 h3 := by
    cases h2
    exact absurd rfl (h3 _)

end

/-- Extensible list of cost lemmas. -/
syntax "cost_step" : tactic
macro_rules | `(tactic| cost_step) => `(tactic| exact cost_next)
macro_rules | `(tactic| cost_step) => `(tactic| exact Costs.error (k := fun _ => 0) (e := 0) (Int.le_refl _))
macro_rules | `(tactic| cost_step) => `(tactic| exact Costs.ofResult (k := fun _ => 0) (e := 0) (fun _ => Int.le_refl _) (Int.le_refl _))

/-- Follow the code, adding up. -/
macro "cost" : tactic => `(tactic|
  repeat' (first
    | with_reducible assumption
    | with_reducible refine Costs.assoc ?_
    | with_reducible refine Costs.pure ?_
    | with_reducible refine Costs.error ?_
    | with_reducible refine Costs.panic ?_
    | with_reducible refine Costs.outOfFuel ?_
    | with_reducible refine Costs.lift ?_ ?_
    | with_reducible refine Costs.ofResult ?_ ?_
    | with_reducible refine Costs.pure_bind ?_
    | (with_reducible refine Costs.peek_bind ?_; intro _ _)
    | (with_reducible refine Costs.attempt_bind (by with_reducible cost_step) ?_ ?_ ?_)
    | (with_reducible refine Costs.bind (by with_reducible cost_step) ?_ ?_)
    | (with_reducible refine Costs.ite ?_ ?_)
    | (with_reducible refine Costs.weaken (by with_reducible cost_step) (fun _ _ => trivial) ?_ ?_)
    | (simp only [nextCost] at *; omega)
    | omega
    | intro _
    | split))

section
variable {K : Type} {h : Option Tok → Prop}

theorem cost_advance : Costs h (P.advance : P (CallCount (List Tok)) K Unit) (fun _ => 1) 0 := by
  unfold P.advance
  refine Costs.bind cost_next (Int.le_refl _) fun b => Costs.pure ?_
  cases b <;> simp [nextCost]
macro_rules | `(tactic| cost_step) => `(tactic| exact cost_advance)

/-- With a token there, `advance` consumes it. -/
theorem cost_advance_some {t : Tok} :
    Costs (fun o => o = some t) (P.advance : P (CallCount (List Tok)) K Unit) (fun _ => -7) 0 where
  ok s a s' h1 h2 := by
    obtain ⟨line, ⟨src, calls⟩⟩ := s
    cases src with
    | nil => cases h1
    | cons t src =>
      cases h2
      simp only [spent, TokStream.next, List.tail_cons, List.length_cons]
      omega
  other s o s' _ h2 h3 := by
    cases h2
    exact absurd rfl (h3 _)
macro_rules | `(tactic| cost_step) => `(tactic| (exact cost_advance_some))

theorem cost_skip_zero (n : Nat) :
    Costs h (P.skip_zero_or_more_newlines n : P (CallCount (List Tok)) K Unit) (fun _ => 1) 1 := by
  induction n generalizing h with
  | zero => exact .outOfFuel (by omega)
  | succ n ih =>
    unfold P.skip_zero_or_more_newlines
    refine Costs.peek_bind fun o _ => ?_
    cases o with
    | none => exact Costs.pure (by omega)
    | some st =>
      dsimp only
      split
      · exact Costs.bind cost_advance_some (by omega) fun _ => ih.weaken (fun _ h => h) (fun _ => by omega) (by omega)
      · exact Costs.pure (by omega)
macro_rules | `(tactic| cost_step) => `(tactic| exact cost_skip_zero _)

end

/-! ## OBJ -/

namespace Obj

section
variable {h : Option Tok → Prop}

local notation "LS" => CallCount (List Tok)

theorem cost_next_string : Costs h (next_string : OP LS Tok) (fun _ => -7) 1 := by
  unfold next_string
  refine Costs.bind cost_next (by omega) fun o => ?_
  cases o <;> simp only [nextCost]
  · exact .error (by omega)
  · exact .pure (by omega)
macro_rules | `(tactic| cost_step) => `(tactic| exact cost_next_string)

theorem cost_expect_tag (t : Tok) : Costs h (expect_tag t : OP LS Unit) (fun _ => -7) 1 := by
  unfold expect_tag
  refine Costs.bind cost_next (by omega) fun o => ?_
  cases o <;> simp only [nextCost]
  · exact .error (by omega)
  · exact .ite (fun _ => .error (by omega)) (fun _ => .pure (by omega))
macro_rules | `(tactic| cost_step) => `(tactic| exact cost_expect_tag _)

theorem cost_parse_isize : Costs h (parse_isize : OP LS Int) (fun _ => -7) 1 := by
  unfold parse_isize; cost
macro_rules | `(tactic| cost_step) => `(tactic| exact cost_parse_isize)

theorem cost_skip_one (n : Nat) : Costs h (skip_one_or_more_newlines n : OP LS Unit) (fun _ => -6) 1 := by
  unfold skip_one_or_more_newlines; cost
macro_rules | `(tactic| cost_step) => `(tactic| exact cost_skip_one _)

theorem cost_calculate_index (cfg : Cfg) (r : Nat × Nat) (v : Int) :
    Costs h (calculate_index cfg r v : OP LS Nat) (fun _ => 0) 0 := by
  unfold calculate_index
  dsimp only
  refine Costs.bind (f := fun _ => 0) (e₀ := 0) ?_ (by omega) fun _ => ?_
  · cost
  · cost
macro_rules | `(tactic| cost_step) => `(tactic| exact cost_calculate_index _ _ _)

theorem cost_process_split (cfg : Cfg) (b : Bytes) (r : Nat × Nat) :
    Costs h (process_split cfg b r : OP LS (Option Nat)) (fun _ => 0) 0 := by
  unfold process_split; cost
macro_rules | `(tactic| cost_step) => `(tactic| exact cost_process_split _ _ _)

theorem cost_process_next_split (cfg : Cfg) (b : Option Bytes) (r : Nat × Nat) :
    Costs h (process_next_split cfg b r : OP LS (Option Nat)) (fun _ => 0) 0 := by
  unfold process_next_split; cost
macro_rules | `(tactic| cost_step) => `(tactic| exact cost_process_next_split _ _ _)

theorem cost_parse_vtn_index (cfg : Cfg) (r : Ranges) :
    Costs h (parse_vtn_index cfg r : OP LS VTNIndex) (fun _ => -7) 1 := by
  unfold parse_vtn_index; cost
macro_rules | `(tactic| cost_step) => `(tactic| exact cost_parse_vtn_index _ _)

theorem cost_parse_vtn_indices (cfg : Cfg) (r : Ranges) (n : Nat) (l : List VTNIndex) :
    Costs h (parse_vtn_indices cfg r n l : OP LS (List VTNIndex)) (fun _ => 1) 1 := by
  induction n generalizing h l with
  | zero => exact .outOfFuel (by omega)
  | succ n ih =>
    unfold parse_vtn_indices
    refine Costs.attempt_bind (cost_parse_vtn_index _ _) (by omega) (fun b => ?_) (fun r => ?_)
    · exact (ih _).weaken (fun _ h => h) (fun _ => by omega) (by omega)
    · exact .pure (by omega)
macro_rules | `(tactic| cost_step) => `(tactic| exact cost_parse_vtn_indices _ _ _ _)

theorem cost_parse_point_loop (cfg : Cfg) (r : Nat × Nat) (n : Nat) (l : List Element) (k : Nat) :
    Costs h (parse_point_loop cfg r n l k : OP LS _) (fun _ => 1) 1 := by
  induction n generalizing h l k with
  | zero => exact .outOfFuel (by omega)
  | succ n ih =>
    unfold parse_point_loop
    refine Costs.bind cost_next (by omega) fun o => ?_
    cases o with
    | none => exact .pure (by simp [nextCost])
    | some st =>
      simp only [nextCost]
      cost
      exact (ih _ _).weaken (fun _ h => h) (fun _ => by omega) (by omega)
macro_rules | `(tactic| cost_step) => `(tactic| exact cost_parse_point_loop _ _ _ _ _)

theorem cost_parse_point (cfg : Cfg) (n : Nat) (l : List Element) (r : Nat × Nat) :
    Costs h (parse_point cfg n l r : OP LS _) (fun _ => -6) 1 := by
  unfold parse_point; cost
macro_rules | `(tactic| cost_step) => `(tactic| exact cost_parse_point _ _ _ _)

theorem cost_parse_line (cfg : Cfg) (n : Nat) (l : List Element) (r : Ranges) :
    Costs h (parse_line cfg n l r : OP LS _) (fun _ => -6) 1 := by
  unfold parse_line; cost
macro_rules | `(tactic| cost_step) => `(tactic| exact cost_parse_line _ _ _ _)

theorem cost_parse_face (cfg : Cfg) (n : Nat) (l : List Element) (r : Ranges) :
    Costs h (parse_face cfg n l r : OP LS _) (fun _ => -6) 1 := by
  unfold parse_face; cost
macro_rules | `(tactic| cost_step) => `(tactic| exact cost_parse_face _ _ _ _)

theorem cost_parse_elements (cfg : Cfg) (n : Nat) (l : List Element) (r : Ranges) :
    Costs h (parse_elements cfg n l r : OP LS _) (fun _ => -5) 2 := by
  unfold parse_elements; cost
macro_rules | `(tactic| cost_step) => `(tactic| exact cost_parse_elements _ _ _ _)

theorem cost_parse_groups_loop (n : Nat) (l : List Group) (k : Nat) :
    Costs h (parse_groups_loop n l k : OP LS _) (fun _ => 1) 1 := by
  induction n generalizing h l k with
  | zero => exact .outOfFuel (by omega)
  | succ n ih =>
    unfold parse_groups_loop
    refine Costs.bind cost_next (by omega) fun o => ?_
    cases o with
    | none => exact .pure (by simp [nextCost])
    | some st =>
      simp only [nextCost]
      cost
      exact (ih _ _).weaken (fun _ h => h) (fun _ => by omega) (by omega)
macro_rules | `(tactic| cost_step) => `(tactic| exact cost_parse_groups_loop _ _ _)

theorem cost_parse_groups (n : Nat) (l : List Group) : Costs h (parse_groups n l : OP LS _) (fun _ => -6) 1 := by
  unfold parse_groups; cost
macro_rules | `(tactic| cost_step) => `(tactic| exact cost_parse_groups _ _)

theorem cost_parse_smoothing_group (l : List SmoothingGroup) :
    Costs h (parse_smoothing_group l : OP LS _) (fun _ => -6) 1 := by
  unfold parse_smoothing_group
  refine Costs.bind (cost_expect_tag _) (by omega) fun _ => Costs.bind cost_next (by omega) fun o => ?_
  cases o <;> simp only [nextCost] <;> cost
macro_rules | `(tactic| cost_step) => `(tactic| exact cost_parse_smoothing_group _)

theorem cost_parse_material_name (l : List (Option Bytes)) :
    Costs h (parse_material_name l : OP LS _) (fun _ => -6) 1 := by
  unfold parse_material_name
  refine Costs.bind (cost_expect_tag _) (by omega) fun _ => Costs.bind cost_next (by omega) fun o => ?_
  cases o <;> simp only [nextCost] <;> cost
macro_rules | `(tactic| cost_step) => `(tactic| exact cost_parse_material_name _)

theorem cost_mtllib_line_loop (n : Nat) (l : List Bytes) :
    Costs h (mtllib_line_loop n l : OP LS _) (fun _ => 1) 1 := by
  induction n generalizing h l with
  | zero => exact .outOfFuel (by omega)
  | succ n ih =>
    unfold mtllib_line_loop
    refine Costs.bind cost_next (by omega) fun o => ?_
    cases o with
    | none => exact .pure (by simp [nextCost])
    | some st =>
      simp only [nextCost]
      cost
      exact (ih _).weaken (fun _ h => h) (fun _ => by omega) (by omega)
macro_rules | `(tactic| cost_step) => `(tactic| exact cost_mtllib_line_loop _ _)

theorem cost_parse_material_library_line (n : Nat) (l : List Bytes) :
    Costs h (parse_material_library_line n l : OP LS _) (fun _ => -6) 1 := by
  unfold parse_material_library_line; cost
macro_rules | `(tactic| cost_step) => `(tactic| exact cost_parse_material_library_line _ _)

theorem cost_mtllibs_loop (f0 n : Nat) (l : List Bytes) :
    Costs h (mtllibs_loop f0 n l : OP LS _) (fun _ => 1) 4 := by
  induction n generalizing h l with
  | zero => exact .outOfFuel (by omega)
  | succ n ih =>
    unfold mtllibs_loop
    cost
    exact (ih _).weaken (fun _ h => h) (fun _ => by omega) (by omega)
macro_rules | `(tactic| cost_step) => `(tactic| exact cost_mtllibs_loop _ _ _)

theorem cost_parse_material_libraries (n : Nat) :
    Costs h (parse_material_libraries n : OP LS _) (fun _ => 2) 5 := by
  unfold parse_material_libraries; cost
macro_rules | `(tactic| cost_step) => `(tactic| exact cost_parse_material_libraries _)

variable {F : Type} [FloatSem F]

theorem cost_parse_f64 : Costs h (parse_f64 : OP LS F) (fun _ => -7) 1 := by
  unfold parse_f64; cost
macro_rules | `(tactic| cost_step) => `(tactic| exact cost_parse_f64)

theorem cost_try_once_f64 : Costs h (try_once_f64 : OP LS (Option F)) (fun _ => 2) 2 := by
  unfold try_once_f64; cost
macro_rules | `(tactic| cost_step) => `(tactic| exact cost_try_once_f64)

theorem cost_parse_vertex : Costs h (parse_vertex : OP LS (Vertex F)) (fun _ => -6) 2 := by
  unfold parse_vertex; cost
macro_rules | `(tactic| cost_step) => `(tactic| exact cost_parse_vertex)

theorem cost_parse_texture_vertex : Costs h (parse_texture_vertex : OP LS (TextureVertex F)) (fun _ => -6) 2 := by
  unfold parse_texture_vertex; cost
macro_rules | `(tactic| cost_step) => `(tactic| exact cost_parse_texture_vertex)

theorem cost_parse_normal_vertex : Costs h (parse_normal_vertex : OP LS (NormalVertex F)) (fun _ => -6) 2 := by
  unfold parse_normal_vertex; cost
macro_rules | `(tactic| cost_step) => `(tactic| exact cost_parse_normal_vertex)

omit [FloatSem F] in
theorem cost_step_g (n : Nat) (st : ObjState F) : Costs h (step_g n st : OP LS _) (fun _ => -5) 2 := by
  unfold step_g; cost
macro_rules | `(tactic| cost_step) => `(tactic| exact cost_step_g _ _)

omit [FloatSem F] in
theorem cost_step_s (st : ObjState F) : Costs h (step_s st : OP LS _) (fun _ => -5) 2 := by
  unfold step_s; cost
macro_rules | `(tactic| cost_step) => `(tactic| exact cost_step_s _)

omit [FloatSem F] in
theorem cost_step_usemtl (st : ObjState F) : Costs h (step_usemtl st : OP LS _) (fun _ => -5) 2 := by
  unfold step_usemtl
  refine Costs.bind (f := fun _ => -5) (e₀ := 2) ?_ (by omega) fun _ => .pure (by omega)
  cost
macro_rules | `(tactic| cost_step) => `(tactic| exact cost_step_usemtl _)

theorem cost_step_v (st : ObjState F) : Costs h (step_v st : OP LS _) (fun _ => -5) 2 := by
  unfold step_v; cost
macro_rules | `(tactic| cost_step) => `(tactic| exact cost_step_v _)

theorem cost_step_vt (st : ObjState F) : Costs h (step_vt st : OP LS _) (fun _ => -5) 2 := by
  unfold step_vt; cost
macro_rules | `(tactic| cost_step) => `(tactic| exact cost_step_vt _)

theorem cost_step_vn (st : ObjState F) : Costs h (step_vn st : OP LS _) (fun _ => -5) 2 := by
  unfold step_vn; cost
macro_rules | `(tactic| cost_step) => `(tactic| exact cost_step_vn _)

omit [FloatSem F] in
theorem cost_step_element (cfg : Cfg) (n : Nat) (st : ObjState F) :
    Costs h (step_element cfg n st : OP LS _) (fun _ => -5) 2 := by
  unfold step_element; cost
macro_rules | `(tactic| cost_step) => `(tactic| exact cost_step_element _ _ _)

theorem cost_object_loop (cfg : Cfg) (f0 n : Nat) (st : ObjState F) :
    Costs h (object_loop cfg f0 n st : OP LS _) (fun _ => 1) 4 := by
  induction n generalizing h st with
  | zero => exact .outOfFuel (by omega)
  | succ n ih =>
    unfold object_loop
    cost
    all_goals exact (ih _).weaken (fun _ h => h) (fun _ => by omega) (by omega)
macro_rules | `(tactic| cost_step) => `(tactic| exact cost_object_loop _ _ _ _)

/-- An object starting with another token than `o` takes at least one. -/
theorem cost_object_loop_some (cfg : Cfg) (f0 n : Nat) (st : ObjState F) {t : Tok} (ht : t ≠ b!"o") :
    Costs (fun o => o = some t) (object_loop cfg f0 n st : OP LS _) (fun _ => -3) 4 := by
  cases n with
  | zero => exact .outOfFuel (by omega)
  | succ n =>
    unfold object_loop
    refine Costs.peek_bind ?_
    rintro _ rfl
    dsimp only
    rw [if_neg (c := t = b!"o") ht]
    cost

theorem cost_parse_object (cfg : Cfg) (n : Nat) (c : Counters) {t : Tok} :
    Costs (fun o => o = some t) (parse_object cfg n c : OP LS (Object F × Counters)) (fun _ => -2) 5 := by
  unfold parse_object parse_object_name
  refine Costs.assoc (Costs.peek_bind ?_)
  rintro _ rfl
  dsimp only
  split
  · cost
  · next hne =>
    refine Costs.pure_bind (Costs.bind (cost_object_loop_some _ _ _ _ hne) (by omega) fun _ => ?_)
    exact .lift (fun _ => by omega) (by omega)

theorem cost_parse_objects_loop (cfg : Cfg) (f0 n : Nat) (c : Counters) (l : List (Object F)) :
    Costs h (parse_objects_loop cfg f0 n c l : OP LS _) (fun _ => 1) 8 := by
  induction n generalizing h c l with
  | zero => exact .outOfFuel (by omega)
  | succ n ih =>
    unfold parse_objects_loop
    refine Costs.peek_bind fun o _ => ?_
    cases o with
    | none => exact .pure (by omega)
    | some t =>
      refine Costs.bind (cost_parse_object _ _ _) (by omega) fun r =>
        Costs.bind (cost_skip_zero _) (by omega) fun _ => ?_
      exact (ih _ _).weaken (fun _ h => h) (fun _ => by omega) (by omega)

theorem cost_parse_objset (cfg : Cfg) (n : Nat) :
    Costs h (parse_objset cfg n : OP LS (ObjectSet F)) (fun _ => 4) 12 := by
  unfold parse_objset
  refine Costs.bind (cost_parse_material_libraries _) (by omega) fun _ =>
    Costs.bind (f := fun _ => 2) (e₀ := 9) ?_ (by omega) fun _ => .pure (by omega)
  unfold parse_objects
  exact Costs.bind (cost_skip_zero _) (by omega) fun _ =>
    (cost_parse_objects_loop _ _ _ _ _).weaken (fun _ h => h) (fun _ => by omega) (by omega)

end

end Obj

/-! ## MTL -/

namespace Mtl

section
variable {h : Option Tok → Prop}

local notation "LS" => CallCount (List Tok)

theorem cost_next_string : Costs h (next_string : MP LS Tok) (fun _ => -7) 1 := by
  unfold next_string
  refine Costs.bind cost_next (by omega) fun o => ?_
  cases o <;> simp only [nextCost]
  · exact .error (by omega)
  · exact .pure (by omega)
macro_rules | `(tactic| cost_step) => `(tactic| exact cost_next_string)

theorem cost_expect_tag (t : Tok) : Costs h (expect_tag t : MP LS Unit) (fun _ => -7) 1 := by
  unfold expect_tag
  refine Costs.bind cost_next (by omega) fun o => ?_
  cases o <;> simp only [nextCost]
  · exact .error (by omega)
  · exact .ite (fun _ => .error (by omega)) (fun _ => .pure (by omega))
macro_rules | `(tactic| cost_step) => `(tactic| exact cost_expect_tag _)

theorem cost_parse_usize : Costs h (parse_usize : MP LS Nat) (fun _ => -7) 1 := by
  unfold parse_usize; cost
macro_rules | `(tactic| cost_step) => `(tactic| exact cost_parse_usize)

theorem cost_parse_illumination_model :
    Costs h (parse_illumination_model : MP LS IlluminationModel) (fun _ => -6) 1 := by
  unfold parse_illumination_model; cost
macro_rules | `(tactic| cost_step) => `(tactic| exact cost_parse_illumination_model)

theorem cost_map_name : Costs h (map_name : MP LS (Option Tok)) (fun _ => 0) 1 := by
  unfold map_name
  refine Costs.bind cost_next (by omega) fun o => ?_
  cases o <;> simp only [nextCost] <;> cost
macro_rules | `(tactic| cost_step) => `(tactic| exact cost_map_name)

theorem cost_parse_map (t : Tok) :
    Costs (fun o => o = some t) (parse_map t : MP LS (Option Tok)) (fun _ => -6) 2 := by
  unfold parse_map
  refine Costs.peek_bind ?_
  rintro _ rfl
  rw [if_pos rfl]
  cost

theorem cost_parse_map_bump {t : Tok} (ht : t = b!"map_Bump" ∨ t = b!"bump") :
    Costs (fun o => o = some t) (parse_map_bump : MP LS (Option Tok)) (fun _ => -6) 2 := by
  unfold parse_map_bump
  refine Costs.peek_bind ?_
  rintro _ rfl
  rcases ht with rfl | rfl
  · rw [if_pos rfl]
    cost
  · rw [if_neg (by decide), if_pos rfl]
    cost

theorem cost_parse_newmtl : Costs h (parse_newmtl : MP LS Tok) (fun _ => -6) 1 := by
  unfold parse_newmtl
  refine Costs.bind cost_next (by omega) fun o => ?_
  cases o with
  | none => simp only [nextCost]; cost
  | some t =>
    simp only [nextCost]
    refine Costs.ite (fun _ => ?_) fun _ => ?_
    · refine Costs.bind cost_next (by omega) fun o => ?_
      cases o <;> simp only [nextCost] <;> cost
    · cost
macro_rules | `(tactic| cost_step) => `(tactic| exact cost_parse_newmtl)

variable {F : Type} [FloatSem F]

theorem cost_parse_f64 : Costs h (parse_f64 : MP LS F) (fun _ => -7) 1 := by
  unfold parse_f64; cost
macro_rules | `(tactic| cost_step) => `(tactic| exact cost_parse_f64)

theorem cost_parse_color : Costs h (parse_color : MP LS (Color F)) (fun _ => -7) 1 := by
  unfold parse_color; cost
macro_rules | `(tactic| cost_step) => `(tactic| exact cost_parse_color)

theorem cost_material_step (t : Tok) (m : Material F) :
    Costs (fun o => o = some t) (material_step t m : MP LS (Material F)) (fun _ => -6) 2 := by
  have map : ∀ (tag : Tok) (g : Option Tok → Material F), t = tag →
      Costs (fun o => o = some t) (parse_map tag >>= fun x => pure (g x) : MP LS (Material F)) (fun _ => -6) 2 := by
    rintro tag g rfl
    exact Costs.bind (cost_parse_map t) (by omega) fun _ => .pure (by omega)
  unfold material_step parse_map_ambient parse_map_diffuse parse_map_specular parse_map_emissive
    parse_map_specular_exponent parse_map_displacement parse_map_dissolve parse_map_decal
    parse_ambient_component parse_diffuse_component parse_specular_component parse_emissive_component
    parse_dissolve_component parse_specular_exponent parse_optical_density
  repeat' (refine Costs.ite (fun _ => ?_) fun _ => ?_)
  all_goals first
    | exact map _ _ ‹_›
    | exact Costs.bind (cost_parse_map_bump ‹_›) (by omega) fun _ => .pure (by omega)
    | (cost; done)

theorem cost_material_loop (f0 n : Nat) (m : Material F) :
    Costs h (material_loop f0 n m : MP LS _) (fun _ => 1) 4 := by
  induction n generalizing h m with
  | zero => exact .outOfFuel (by omega)
  | succ n ih =>
    unfold material_loop
    refine Costs.peek_bind fun o _ => ?_
    cases o with
    | none => exact .pure (by omega)
    | some t =>
      refine Costs.ite (fun _ => .pure (by omega)) fun _ => ?_
      refine Costs.bind (cost_material_step _ _) (by omega) fun _ => Costs.bind (cost_skip_zero _) (by omega) fun _ => ?_
      exact (ih _).weaken (fun _ h => h) (fun _ => by omega) (by omega)
macro_rules | `(tactic| cost_step) => `(tactic| exact cost_material_loop _ _ _)

theorem cost_parse_material (n : Nat) : Costs h (parse_material n : MP LS (Material F)) (fun _ => -4) 4 := by
  unfold parse_material; cost
macro_rules | `(tactic| cost_step) => `(tactic| exact cost_parse_material _)

theorem cost_mtlset_loop (f0 n : Nat) (l : List (Material F)) :
    Costs h (mtlset_loop f0 n l : MP LS _) (fun _ => 1) 6 := by
  induction n generalizing h l with
  | zero => exact .outOfFuel (by omega)
  | succ n ih =>
    unfold mtlset_loop
    cost
    exact (ih _).weaken (fun _ h => h) (fun _ => by omega) (by omega)
macro_rules | `(tactic| cost_step) => `(tactic| exact cost_mtlset_loop _ _ _)

theorem cost_parse_mtlset (n : Nat) : Costs h (parse_mtlset n : MP LS (MaterialSet F)) (fun _ => 3) 12 := by
  unfold parse_mtlset; cost

end

end Mtl

end Verif
