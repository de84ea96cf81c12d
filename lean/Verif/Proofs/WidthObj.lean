import Verif.Proofs.Width
import Verif.Proofs.CheckedTop

/-!
# The OBJ parser on a target of any pointer width
-/

namespace Verif.Obj.Width

open Verif Verif.Obj Verif.Width
open Verif.Obj.Checked (uadd uadd_bind Limits)

/-- The conditions on an index `k` in a text, with counters up to `M`. -/
def GoodIndex (S : Prop) (tgt : Target) (M : Nat) (k : Int) : Prop :=
  tgt.bits = 64 ∨ ((S → |k| + M < 2 ^ (tgt.bits - 1)) ∧
    (tgt.overflow_checks = true → (M : Int) - k < 2 ^ (tgt.bits - 1)))

/-- The conditions on a token. -/
structure Good (S : Prop) (tgt : Target) (M : Nat) (t : Tok) : Prop where
  piece : ∀ b ∈ splitByte 47 t, ∀ k, parseIsize b = some k → GoodIndex S tgt M k
  smoothing : ∀ k, parseUsize t = some k → k < 2 ^ tgt.bits

/-- The pointers have at most 64 bits and counters fit. -/
structure Fits (tgt : Target) (M : Nat) : Prop where
  bits : tgt.bits ≤ 64
  pos : 0 < M
  max : M < 2 ^ (tgt.bits - 1)

section
variable {S : Prop} {tgt : Target} {M : Nat} (hM : Fits tgt M)
include hM

theorem Fits.two : 2 ≤ tgt.bits := by
  obtain ⟨-, h1, h2⟩ := hM
  by_contra hc
  have : tgt.bits - 1 = 0 := by omega
  rw [this] at h2
  omega

theorem Fits.double : (2 : Int) ^ tgt.bits = 2 * 2 ^ (tgt.bits - 1) := by
  have := hM.two
  obtain ⟨v, hv⟩ : ∃ v, tgt.bits = v + 1 := ⟨tgt.bits - 1, by omega⟩
  rw [hv, Int.pow_succ, Nat.add_sub_cancel]
  omega

theorem Fits.maxInt : (M : Int) < 2 ^ (tgt.bits - 1) := by exact_mod_cast hM.max

theorem Fits.le63 : (2 : Int) ^ (tgt.bits - 1) ≤ 2 ^ 63 := by
  have := hM.bits
  exact_mod_cast Nat.pow_le_pow_right (by decide) (by omega : tgt.bits - 1 ≤ 63)

theorem Fits.limit : M ≤ tgt.limits.limit := by
  have h1 := hM.max
  have h2 : 2 ^ (tgt.bits - 1) ≤ 2 ^ tgt.bits := Nat.pow_le_pow_right (by decide) (by omega)
  show M ≤ 2 ^ tgt.bits - 1
  omega

theorem cast_id {n : Nat} (h : n ≤ M) : wrapIsizeAt tgt.bits n = n := by
  have h1 := hM.maxInt
  have h2 := hM.two
  apply wrapIsizeAt_id (by omega)
  · simp only [isizeMinAt]; omega
  · simp only [isizeMaxAt]; omega

variable {σ : Type} {r : Nat × Nat} (h1 : r.1 ≤ M) (h2 : r.2 ≤ M) {k : Int}
include h1 h2

/-- If the subtraction fits, both targets compute the same. -/
theorem calc_same (hk : (M : Int) - k < 2 ^ (tgt.bits - 1)):
    (calculate_index tgt r k : OP σ Nat) = Obj.calculate_index tgt.toCfg r k := by
  have e1 := hM.maxInt
  have e2 := hM.le63
  have e3 := Int.natCast_nonneg r.2
  unfold calculate_index Obj.calculate_index
  simp only [cast_id hM h1, cast_id hM h2]
  by_cases hc : k ≤ 0
  · rw [if_pos hc, if_pos hc, if_pos, if_pos]
    · constructor <;> simp only [isizeMin, isizeMax] <;> omega
    · constructor <;> simp only [isizeMinAt, isizeMaxAt] <;> omega
  · rw [if_neg hc, if_neg hc]

/-- With pointers of 64 bits nothing changes. -/
theorem calc_64 (h64 : tgt.bits = 64) :
    (calculate_index tgt r k : OP σ Nat) = Obj.calculate_index tgt.toCfg r k := by
  have e1 : isizeMinAt tgt.bits = isizeMin := by rw [h64]; rfl
  have e2 : isizeMaxAt tgt.bits = isizeMax := by rw [h64]; rfl
  have e3 : wrapIsizeAt tgt.bits = wrapIsize := by rw [h64]; rfl
  unfold calculate_index Obj.calculate_index
  simp only [cast_id hM h1, cast_id hM h2, e1, e2]
  rw [e3]

omit h1 in
/-- If the index is far away, it is an error on a 64-bit target. -/
theorem calc_far (hc : tgt.overflow_checks = true → (M : Int) - k < 2 ^ (tgt.bits - 1))
    (hk : ¬ ((M : Int) - k < 2 ^ (tgt.bits - 1) ∧ k ≤ isizeMaxAt tgt.bits)) (hk64 : isizeMin ≤ k) :
    ∃ m, (Obj.calculate_index tgt.toCfg r k : OP σ Nat) = P.error .VTNIndexOutOfRange m := by
  have e1 := hM.maxInt
  have e2 := hM.le63
  have e3 := Int.natCast_nonneg r.2
  have e4 := Int.natCast_nonneg r.1
  unfold Obj.calculate_index
  dsimp only
  simp only [isizeMaxAt, isizeMin] at hk hk64
  by_cases h0 : k ≤ 0
  · rw [if_pos h0]
    by_cases hf : isizeMin ≤ (r.2 : Int) - k ∧ (r.2 : Int) - k ≤ isizeMax
    · rw [if_pos hf]
      refine ⟨_, if_neg ?_⟩
      omega
    · have hn : ¬ tgt.overflow_checks = true := by
        intro h
        have := hc h
        simp only [isizeMin, isizeMax] at hf
        omega
      rw [if_neg hf, if_neg hn]
      refine ⟨_, if_neg ?_⟩
      simp only [wrapIsize, isizeMin, isizeMax] at *
      omega
  · rw [if_neg h0]
    refine ⟨_, if_neg ?_⟩
    omega

/-- If the index is far away but can be read, it is an error on the narrow target. -/
theorem calc_far' (hc : tgt.overflow_checks = true → (M : Int) - k < 2 ^ (tgt.bits - 1))
    (hk : ¬ ((M : Int) - k < 2 ^ (tgt.bits - 1))) (hkw : isizeMinAt tgt.bits ≤ k) :
    ∃ m, (calculate_index tgt r k : OP σ Nat) = P.error .VTNIndexOutOfRange m := by
  have e1 := hM.maxInt
  have e3 := Int.natCast_nonneg r.2
  have e4 := Int.natCast_nonneg r.1
  have hd := hM.double
  have hn : ¬ tgt.overflow_checks = true := fun h => hk (hc h)
  have h0 : k ≤ 0 := by omega
  unfold calculate_index
  simp only [cast_id hM h1, cast_id hM h2]
  rw [if_pos h0]
  simp only [isizeMinAt] at hkw
  by_cases hf : isizeMinAt tgt.bits ≤ (r.2 : Int) - k ∧ (r.2 : Int) - k ≤ isizeMaxAt tgt.bits
  · rw [if_pos hf]
    refine ⟨_, if_neg ?_⟩
    omega
  · rw [if_neg hf, if_neg hn]
    refine ⟨_, if_neg ?_⟩
    simp only [wrapIsizeAt, isizeMinAt, isizeMaxAt] at *
    generalize (2 : Int) ^ (tgt.bits - 1) = W at *
    rw [hd]
    have : ((r.2 : Int) - k + W) % (2 * W) = (r.2 : Int) - k + W - 2 * W := by
      rw [← Int.sub_emod_right, Int.emod_eq_of_lt] <;> omega
    rw [this]
    omega

end

section
variable {S : Prop} {tgt : Target} {M : Nat} (hM : Fits tgt M)
  {α β : Type} {toks : List Tok} {q : β → α → List Tok → Prop}
include hM

/-- Reading a number and looking it up. -/
theorem rel_lookup {b : Bytes} (hb : ∀ k, parseIsize b = some k → GoodIndex S tgt M k)
    {r : Nat × Nat} (h1 : r.1 ≤ M) (h2 : r.2 ≤ M) {g : Nat → OP (List Tok) β} {f : Nat → OP (List Tok) α}
    (hf : ∀ i, Rel S (Good S tgt M) (g i) (f i) toks q) (m : Bytes) :
    Rel S (Good S tgt M)
      (match parseIsizeAt tgt.bits b with
        | some v => calculate_index tgt r v >>= g
        | none => P.error .ExpectedInteger m)
      (match parseIsize b with
        | some v => Obj.calculate_index tgt.toCfg r v >>= f
        | none => P.error .ExpectedInteger m) toks q := by
  have herr : ∀ {α : Type} (k : ErrorKind) (m : Bytes) (f : Nat → OP (List Tok) α),
      (P.error k m >>= f) = P.error k m := fun _ _ _ => rfl
  have hcalc : ∀ k, Rel S (Good S tgt M) (Obj.calculate_index tgt.toCfg r k >>= g)
      (Obj.calculate_index tgt.toCfg r k >>= f) toks q := by
    intro k
    refine Rel.bind (r := fun b a rest => b = a ∧ rest = toks) ?_ ?_
    · unfold Obj.calculate_index
      dsimp only
      refine Rel.bind (r := fun b a rest => b = a ∧ rest = toks) ?_ ?_
      · exact Rel.ite (fun _ => Rel.ite (fun _ => Rel.pure ⟨rfl, rfl⟩) fun _ =>
          Rel.ite (fun _ => Rel.panic _) fun _ => Rel.pure ⟨rfl, rfl⟩) fun _ => Rel.pure ⟨rfl, rfl⟩
      · rintro v _ rest _ ⟨rfl, rfl⟩
        exact Rel.ite (fun _ => Rel.ite (fun _ => Rel.panic _) fun _ => Rel.pure ⟨rfl, rfl⟩)
          fun _ => Rel.error _ _
    · rintro i _ rest _ ⟨rfl, rfl⟩
      exact hf i
  cases hk : parseIsize b with
  | none =>
    rw [parseIsizeAt_none hM.bits hk]
    exact Rel.error _ _
  | some k =>
    rcases hb k hk with h64 | ⟨hs, hc⟩
    · rw [h64, ← parseIsize_eq, hk]
      dsimp only
      rw [calc_64 hM h1 h2 h64]
      exact hcalc k
    have h64 : isizeMin ≤ k := by
      rw [parseIsize_eq, parseIsizeAt_some hk] at hk
      split at hk
      · rename_i h; exact h.1
      · cases hk
    rw [parseIsizeAt_some hk]
    dsimp only
    by_cases hfit : (M : Int) - k < 2 ^ (tgt.bits - 1) ∧ k ≤ isizeMaxAt tgt.bits
    · rw [if_pos ⟨by simp only [isizeMinAt]; omega, hfit.2⟩]
      dsimp only
      rw [calc_same hM h1 h2 hfit.1]
      exact hcalc k
    · have hS : ¬ S := by
        intro h
        have := hs h
        apply hfit
        simp only [isizeMaxAt]
        have h3 := abs_lt.mp (show |k| < 2 ^ (tgt.bits - 1) - M by omega)
        have := Int.natCast_nonneg M
        constructor <;> omega
      obtain ⟨m', e'⟩ := calc_far (σ := List Tok) hM h2 hc hfit h64
      rw [e', herr]
      split
      · rename_i v hv
        split at hv
        · rename_i hw
          cases hv
          obtain ⟨m'', e''⟩ := calc_far' (σ := List Tok) hM h1 h2 hc (fun h => hfit ⟨h, hw.2⟩) hw.1
          rw [e'', herr]
          exact Rel.error_ne _ _ _ _ hS
        · cases hv
      · exact Rel.error_ne _ _ _ _ hS

/-- All ranges are below `M`. -/
structure Below (M : Nat) (r : Ranges) : Prop where
  v1 : r.vertex.1 ≤ M
  v2 : r.vertex.2 ≤ M
  t1 : r.texture.1 ≤ M
  t2 : r.texture.2 ≤ M
  n1 : r.normal.1 ≤ M
  n2 : r.normal.2 ≤ M

omit hM in
theorem rel_next_string : Rel S (Good S tgt M) (next_string : OP _ _) next_string toks fun b a rest =>
    b = a ∧ Good S tgt M a ∧ rest.length + 1 ≤ toks.length := by
  unfold next_string
  refine Rel.bind Rel.next ?_
  rintro b _ rest hl ⟨rfl, rfl | ⟨t, rfl, hg, h⟩⟩
  · exact Rel.error _ _
  · exact Rel.pure ⟨rfl, hg, h⟩

omit hM in
theorem rel_same {α : Type} {p : OP (List Tok) α} (h : Checked.Mono p)
    (hs : Sim 0 (Same (Good S tgt M)) p p) (toks : List Tok) :
    Rel S (Good S tgt M) p p toks fun b a _ => b = a := Rel.of_checked (h toks) hs

omit hM in
theorem rel_eats {α : Type} {p : OP (List Tok) α} (h : Checked.Eats p)
    (hs : Sim 0 (Same (Good S tgt M)) p p) (toks : List Tok) :
    Rel S (Good S tgt M) p p toks fun b a rest => b = a ∧ rest.length + 1 ≤ toks.length :=
  Rel.of_checked (h toks) hs

omit hM in
theorem rel_expect_tag (t : Tok) (toks : List Tok) :
    Rel S (Good S tgt M) (expect_tag t : OP _ _) (expect_tag t) toks
      fun b a rest => b = a ∧ rest.length + 1 ≤ toks.length :=
  rel_eats (Checked.eats_expect_tag t) (sim_expect_tag same_bisim t) toks

theorem rel_process_split {b : Bytes} (hb : ∀ k, parseIsize b = some k → GoodIndex S tgt M k)
    {r : Nat × Nat} (h1 : r.1 ≤ M) (h2 : r.2 ≤ M) :
    Rel S (Good S tgt M) (process_split tgt b r) (Obj.process_split tgt.toCfg b r) toks
      fun b a rest => b = a ∧ rest = toks := by
  unfold process_split Obj.process_split
  refine Rel.ite (fun _ => ?_) fun _ => Rel.pure ⟨rfl, rfl⟩
  have := rel_lookup (toks := toks) hM hb h1 h2 (g := fun i => Pure.pure (some i)) (f := fun i => Pure.pure (some i))
    (q := fun b a rest => b = a ∧ rest = toks) (fun i => Rel.pure ⟨rfl, rfl⟩) (expectedInteger b)
  cases h : parseIsizeAt tgt.bits b <;> cases h' : parseIsize b <;> rw [h, h'] at this <;> exact this

theorem rel_process_next_split {b : Option Bytes}
    (hb : ∀ x, b = some x → ∀ k, parseIsize x = some k → GoodIndex S tgt M k)
    {r : Nat × Nat} (h1 : r.1 ≤ M) (h2 : r.2 ≤ M) :
    Rel S (Good S tgt M) (process_next_split tgt b r) (Obj.process_next_split tgt.toCfg b r) toks
      fun b a rest => b = a ∧ rest = toks := by
  unfold process_next_split Obj.process_next_split
  cases b with
  | none => exact Rel.pure ⟨rfl, rfl⟩
  | some x => exact rel_process_split hM (hb x rfl) h1 h2

theorem rel_vtn_index {r : Ranges} (hr : Below M r) (toks : List Tok) :
    Rel S (Good S tgt M) (parse_vtn_index tgt r) (Obj.parse_vtn_index tgt.toCfg r) toks
      fun b a rest => b = a ∧ rest.length + 1 ≤ toks.length := by
  unfold parse_vtn_index Obj.parse_vtn_index
  refine Rel.bind rel_next_string ?_
  rintro t _ rest hl ⟨rfl, hg, hlen⟩
  have hp : ∀ (i : Nat) x, (splitByte 47 t)[i]? = some x → ∀ k, parseIsize x = some k → GoodIndex S tgt M k :=
    fun i x hx => hg.piece x (List.mem_of_getElem? hx)
  dsimp only
  refine Rel.bind (rel_process_next_split hM (hp 0) hr.v1 hr.v2) ?_
  rintro x1 _ rest' _ ⟨rfl, rfl⟩
  refine Rel.bind (rel_process_next_split hM (hp 1) hr.t1 hr.t2) ?_
  rintro x2 _ rest' _ ⟨rfl, rfl⟩
  refine Rel.bind (rel_process_next_split hM (hp 2) hr.n1 hr.n2) ?_
  rintro x3 _ rest' _ ⟨rfl, rfl⟩
  refine Rel.ite (fun _ => Rel.error _ _) fun _ => ?_
  rcases x1 with _ | x1 <;> rcases x2 with _ | x2 <;> rcases x3 with _ | x3 <;>
    first
      | exact Rel.error _ _
      | exact Rel.pure ⟨rfl, hlen⟩

theorem rel_vtn_indices {r : Ranges} (hr : Below M r) (fuel : Nat) (l : List VTNIndex) (n : Nat) (toks : List Tok)
    (h : n + toks.length ≤ tgt.limits.limit) :
    Rel S (Good S tgt M) (parse_vtn_indices tgt r fuel l n) (Obj.parse_vtn_indices tgt.toCfg r fuel l) toks
      fun b a rest => b.1 = a ∧ a.length + rest.length ≤ l.length + toks.length := by
  induction fuel generalizing l n toks with
  | zero => exact Rel.outOfFuel
  | succ fuel ih =>
    unfold parse_vtn_indices Obj.parse_vtn_indices
    refine Rel.bind (rel_vtn_index hM hr toks).attempt ?_
    rintro b a rest hl (⟨x, y, rfl, rfl, rfl, hr⟩ | ⟨e, e', rfl, rfl⟩)
    · dsimp only
      rw [uadd_bind (by omega)]
      refine (ih _ _ rest (by omega)).mono ?_
      rintro b a rest' _ ⟨rfl, h'⟩
      refine ⟨rfl, ?_⟩
      simp only [List.length_append, List.length_cons, List.length_nil] at h'
      omega
    · exact Rel.pure ⟨rfl, by omega⟩

omit hM in
/-- A token that is a number is its only piece. -/
theorem Good.whole {t : Tok} (hg : Good S tgt M t) : ∀ k, parseIsize t = some k → GoodIndex S tgt M k := by
  intro k hk
  refine hg.piece t ?_ k hk
  rw [splitByte_none _ (parseIsize_no_slash hk)]
  exact List.mem_singleton_self _

theorem rel_point_loop {r : Nat × Nat} (h1 : r.1 ≤ M) (h2 : r.2 ≤ M) (fuel : Nat) (l : List Element) (n : Nat)
    (toks : List Tok) (h : n + toks.length ≤ tgt.limits.limit) :
    Rel S (Good S tgt M) (parse_point_loop tgt r fuel l n) (Obj.parse_point_loop tgt.toCfg r fuel l n) toks
      fun b a rest => b = a ∧ b.2 + rest.length ≤ n + toks.length := by
  induction fuel generalizing l n toks with
  | zero => exact Rel.outOfFuel
  | succ fuel ih =>
    unfold parse_point_loop Obj.parse_point_loop
    refine Rel.bind Rel.next ?_
    rintro b _ rest hl ⟨rfl, rfl | ⟨t, rfl, hg, hr⟩⟩
    · exact Rel.pure ⟨rfl, by dsimp only; omega⟩
    · refine Rel.ite (fun _ => ?_) (fun _ => Rel.pure ⟨rfl, by dsimp only; omega⟩)
      refine rel_lookup hM hg.whole h1 h2 (fun i => ?_) _
      rw [uadd_bind (by omega)]
      refine (ih _ _ rest (by omega)).mono ?_
      rintro b a rest'' _ ⟨rfl, h'⟩
      exact ⟨rfl, by omega⟩

theorem rel_point {r : Nat × Nat} (h1 : r.1 ≤ M) (h2 : r.2 ≤ M) (fuel : Nat) (l : List Element) (toks : List Tok)
    (h : toks.length ≤ tgt.limits.limit) :
    Rel S (Good S tgt M) (parse_point tgt fuel l r) (Obj.parse_point tgt.toCfg fuel l r) toks
      fun b a rest => b = a ∧ b.2 + rest.length + 1 ≤ toks.length := by
  unfold parse_point Obj.parse_point
  refine Rel.bind (rel_expect_tag _ _) ?_
  rintro _ _ rest hl ⟨-, h3⟩
  unfold parse_isize Obj.parse_isize
  rw [bind_assoc, bind_assoc]
  refine Rel.bind rel_next_string ?_
  rintro t _ rest' hl' ⟨rfl, hg, h4⟩
  have := rel_lookup (toks := rest') hM hg.whole h1 h2
    (g := fun i => parse_point_loop tgt r fuel (l ++ [Element.Point (.V i)]) 1)
    (f := fun i => Obj.parse_point_loop tgt.toCfg r fuel (l ++ [Element.Point (.V i)]) 1)
    (fun i => rel_point_loop hM h1 h2 _ _ _ _ (by omega)) (expectedInteger t)
  refine Rel.mono (r := fun b a rest => b = a ∧ b.2 + rest.length ≤ 1 + rest'.length) ?_ ?_
  · cases h : parseIsizeAt tgt.bits t <;> cases h' : parseIsize t <;> rw [h, h'] at this <;> exact this
  · rintro b a rest'' _ ⟨rfl, h'⟩
    exact ⟨rfl, by omega⟩

theorem rel_line {r : Ranges} (hr : Below M r) (fuel : Nat) (l : List Element) (toks : List Tok)
    (h : toks.length ≤ tgt.limits.limit) :
    Rel S (Good S tgt M) (parse_line tgt fuel l r) (Obj.parse_line tgt.toCfg fuel l r) toks
      fun b a rest => b = a ∧ b.2 + rest.length + 1 ≤ toks.length := by
  unfold parse_line Obj.parse_line
  refine Rel.bind (rel_expect_tag _ _) ?_
  rintro _ _ rest hl ⟨-, h1⟩
  refine Rel.bind (rel_vtn_index hM hr _) ?_
  rintro _ v rest' hl' ⟨rfl, h2⟩
  refine Rel.bind (rel_vtn_index hM hr _) ?_
  rintro _ w rest'' hl'' ⟨rfl, h3⟩
  refine Rel.bind (rel_vtn_indices hM hr fuel _ 0 _ (by omega)) ?_
  rintro ⟨b, n⟩ a rest3 hl3 ⟨rfl, h4⟩
  refine Rel.ite (fun _ => Rel.error _ _) fun _ => ?_
  dsimp only at h4 ⊢
  cases hs : lineSegments l b with
  | none => exact Rel.panic _
  | some res =>
    refine Rel.pure ⟨rfl, ?_⟩
    rw [Checked.lineSegments_count hs]
    simp only [List.length_cons, List.length_nil] at h4
    omega

theorem rel_face {r : Ranges} (hr : Below M r) (fuel : Nat) (l : List Element) (toks : List Tok)
    (h : toks.length ≤ tgt.limits.limit) :
    Rel S (Good S tgt M) (parse_face tgt fuel l r) (Obj.parse_face tgt.toCfg fuel l r) toks
      fun b a rest => b = a ∧ b.2 + rest.length + 1 ≤ toks.length := by
  unfold parse_face Obj.parse_face
  refine Rel.bind (rel_expect_tag _ _) ?_
  rintro _ _ rest hl ⟨-, h1⟩
  refine Rel.bind (rel_vtn_indices hM hr fuel _ 0 _ (by omega)) ?_
  rintro ⟨b, n⟩ a rest3 hl3 ⟨rfl, h4⟩
  dsimp only at h4 ⊢
  refine Rel.ite (fun _ => Rel.error _ _) fun _ => ?_
  refine Rel.ite (fun _ => Rel.error _ _) fun _ => ?_
  cases hs : triangulate l b with
  | none => exact Rel.panic _
  | some res =>
    refine Rel.pure ⟨rfl, ?_⟩
    rw [Checked.triangulate_count hs]
    simp only [List.length_nil] at h4
    omega

theorem rel_elements {r : Ranges} (hr : Below M r) (fuel : Nat) (l : List Element) (toks : List Tok)
    (h : toks.length ≤ tgt.limits.limit) :
    Rel S (Good S tgt M) (parse_elements tgt fuel l r) (Obj.parse_elements tgt.toCfg fuel l r) toks
      fun b a rest => b = a ∧ b.2 + rest.length + 1 ≤ toks.length := by
  unfold parse_elements Obj.parse_elements
  refine Rel.bind Rel.peek ?_
  rintro b a rest hl ⟨rfl, -, rfl⟩
  refine Rel.ite (fun _ => rel_point hM hr.v1 hr.v2 _ _ _ h) fun _ => ?_
  refine Rel.ite (fun _ => rel_line hM hr _ _ _ h) fun _ => ?_
  exact Rel.ite (fun _ => rel_face hM hr _ _ _ h) fun _ => Rel.error _ _

theorem rel_smoothing_group (l : List SmoothingGroup) (toks : List Tok) :
    Rel S (Good S tgt M) (parse_smoothing_group tgt l) (Obj.parse_smoothing_group l) toks
      fun b a rest => b = a ∧ rest.length + 1 ≤ toks.length := by
  unfold parse_smoothing_group Obj.parse_smoothing_group
  refine Rel.bind (rel_expect_tag _ _) ?_
  rintro _ _ rest hl ⟨-, h1⟩
  refine Rel.bind Rel.next ?_
  rintro b _ rest' hl' ⟨rfl, rfl | ⟨t, rfl, hg, h2⟩⟩
  · exact Rel.error _ _
  · refine Rel.ite (fun _ => Rel.pure ⟨rfl, by omega⟩) fun _ => ?_
    cases hk : parseUsize t with
    | none =>
      rw [parseUsizeAt_none hM.bits hk]
      exact Rel.error _ _
    | some k =>
      have := hg.smoothing k hk
      rw [parseUsizeAt_some hk, if_pos (by simp only [usizeMaxAt]; omega)]
      exact Rel.pure ⟨rfl, by omega⟩

end

/-! ## The main loop -/

section
variable {F : Type} [FloatSem F] {S : Prop} {tgt : Target} {N : Nat} (hM : Fits tgt (N + 1))
  {st : ObjState F} {toks : List Tok} (hi : Checked.Inv N st toks)
include hM hi

omit [FloatSem F] in
theorem rel_step_s : Rel S (Good S tgt (N + 1)) (step_s tgt st) (Obj.step_s st) toks
    fun b a rest => b = a ∧ Checked.Inv N b rest := by
  have hL := hM.limit
  obtain ⟨h1, h2, h3, h4, h5, h6, h7, h8, h9, h10, h11, h12, h13⟩ := hi
  unfold step_s Obj.step_s
  refine Rel.ite (fun _ => ?_) fun _ => ?_
  · refine Rel.bind (rel_smoothing_group hM _ _) ?_
    rintro b a rest hl ⟨rfl, h⟩
    refine Rel.pure ⟨rfl, ?_⟩
    close_inv
  · refine Rel.bind (rel_smoothing_group hM _ _) ?_
    rintro b a rest hl ⟨rfl, h⟩
    rw [uadd_bind (by omega)]
    refine Rel.pure ⟨rfl, ?_⟩
    close_inv

omit [FloatSem F] in
theorem rel_step_element (fuel : Nat) :
    Rel S (Good S tgt (N + 1)) (step_element tgt fuel st) (Obj.step_element tgt.toCfg fuel st) toks
      fun b a rest => b = a ∧ Checked.Inv N b rest := by
  have hL := hM.limit
  unfold step_element Obj.step_element
  have hi' := hi.fill
  generalize fillDefaults st = st' at hi'
  obtain ⟨h1, h2, h3, h4, h5, h6, h7, h8, h9, h10, h11, h12, h13⟩ := hi'
  dsimp only
  have hb : Below (N + 1) st'.ctr.ranges := by
    constructor <;> simp only [Counters.ranges] <;> omega
  refine Rel.bind (rel_elements hM hb _ _ _ (by omega)) ?_
  rintro b a rest hl ⟨rfl, h⟩
  rw [uadd_bind (by omega), uadd_bind (by omega), uadd_bind (by omega)]
  refine Rel.pure ⟨rfl, ?_⟩
  close_inv

theorem rel_object_loop (fuel0 fuel : Nat) :
    Rel S (Good S tgt (N + 1)) (object_loop tgt fuel0 fuel st) (Obj.object_loop tgt.toCfg fuel0 fuel st) toks
      fun b a rest => b = a ∧ Checked.Inv N b rest := by
  have hL : N < tgt.limits.limit := hM.limit
  induction fuel generalizing st toks with
  | zero => exact Rel.outOfFuel
  | succ fuel ih =>
    have close : Checked.Inv N (closeTables st) toks := by
      obtain ⟨h1, h2, h3, h4, h5, h6, h7, h8, h9, h10, h11, h12, h13⟩ := hi
      constructor <;> assumption
    unfold object_loop Obj.object_loop
    refine Rel.bind Rel.peek ?_
    rintro b a rest hl ⟨rfl, -, rfl⟩
    cases b with
    | none => exact Rel.pure ⟨rfl, close⟩
    | some t =>
      have next : ∀ (b a : ObjState F) (rest' : List Tok), rest'.length ≤ rest.length →
          (b = a ∧ Checked.Inv N b rest') →
          Rel S (Good S tgt (N + 1)) (object_loop tgt fuel0 fuel b) (Obj.object_loop tgt.toCfg fuel0 fuel a) rest'
            fun b a rest => b = a ∧ Checked.Inv N b rest := by
        rintro b a rest' _ ⟨rfl, h⟩
        exact ih h
      dsimp only
      refine Rel.ite (fun _ => Rel.bind (Rel.of_checked (Checked.rel_step_g tgt.limits hL hi fuel0)
        (sim_step_g same_bisim (Nat.le_refl _) _)) next) fun _ => ?_
      refine Rel.ite (fun _ => Rel.bind (rel_step_s hM hi) next) fun _ => ?_
      refine Rel.ite (fun _ => Rel.bind (Rel.of_checked (Checked.rel_step_usemtl tgt.limits hL hi)
        (sim_step_usemtl same_bisim _)) next) fun _ => ?_
      refine Rel.ite (fun _ => Rel.bind (Rel.of_checked (Checked.rel_step_v tgt.limits hL hi)
        (sim_step_v same_bisim _)) next) fun _ => ?_
      refine Rel.ite (fun _ => Rel.bind (Rel.of_checked (Checked.rel_step_vt tgt.limits hL hi)
        (sim_step_vt same_bisim _)) next) fun _ => ?_
      refine Rel.ite (fun _ => Rel.bind (Rel.of_checked (Checked.rel_step_vn tgt.limits hL hi)
        (sim_step_vn same_bisim _)) next) fun _ => ?_
      refine Rel.ite (fun _ => Rel.bind (rel_step_element hM hi fuel0) next) fun _ => ?_
      refine Rel.ite (fun _ => Rel.bind (rel_same (Checked.mono_skip_one fuel0)
        (sim_skip_one same_bisim (Nat.le_refl _)) rest) ?_) fun _ => ?_
      · rintro _ _ rest' hl' -
        exact ih (hi.shrink hl')
      · exact Rel.ite (fun _ => Rel.pure ⟨rfl, close⟩) fun _ => Rel.error _ _

end

/-! ## Objects and files -/

section
variable {F : Type} [FloatSem F] {S : Prop} {tgt : Target} {N : Nat} (hM : Fits tgt (N + 1))
include hM

theorem rel_object (fuel : Nat) {c : Counters} {toks : List Tok} (hc : Checked.CInv N c toks) :
    Rel S (Good S tgt (N + 1)) (parse_object tgt fuel c)
      (Obj.parse_object tgt.toCfg fuel c : OP _ (Object F × Counters)) toks
      fun b a rest => b = a ∧ Checked.CInv N b.2 rest := by
  have hL : N < tgt.limits.limit := hM.limit
  unfold parse_object Obj.parse_object
  refine Rel.bind (rel_same (Checked.mono_parse_object_name fuel)
    (sim_parse_object_name same_bisim (Nat.le_refl _)) toks) ?_
  rintro name _ rest hl rfl
  have hi : Checked.Inv N ({ ctr := c } : ObjState F) rest := by
    obtain ⟨h1, h2, h3, h4, h5, h6, h7⟩ := hc
    close_inv
  refine Rel.bind (rel_object_loop hM hi fuel fuel) ?_
  rintro st _ rest' hl' ⟨rfl, h⟩
  refine Rel.bind_left (Rel.lift (r := fun (b a : Object F × Counters) rest'' => b = a ∧ b.2 = bumpCounters st ∧ rest'' = rest')
    fun a ha => ⟨rfl, Checked.finishObject_ok tgt.limits ha, rfl⟩) ?_
  rintro r _ rest'' _ ⟨rfl, hr, rfl⟩
  obtain ⟨o, c'⟩ := r
  dsimp only at hr ⊢
  subst hr
  obtain ⟨h1, h2, h3, h4, h5, h6, h7, h8, h9, h10, h11, h12, h13⟩ := h
  rw [uadd_bind (by omega), uadd_bind (by omega), uadd_bind (by omega)]
  refine Rel.pure ⟨rfl, ?_⟩
  close_inv

theorem rel_objects_loop (fuel0 fuel : Nat) {c : Counters} {toks : List Tok} (hc : Checked.CInv N c toks)
    (acc : List (Object F)) :
    Rel S (Good S tgt (N + 1)) (parse_objects_loop tgt fuel0 fuel c acc)
      (Obj.parse_objects_loop tgt.toCfg fuel0 fuel c acc) toks fun b a _ => b = a := by
  induction fuel generalizing c toks acc with
  | zero => exact Rel.outOfFuel
  | succ fuel ih =>
    unfold parse_objects_loop Obj.parse_objects_loop
    refine Rel.bind Rel.peek ?_
    rintro b a rest hl ⟨rfl, -, rfl⟩
    cases b with
    | none => exact Rel.pure rfl
    | some t =>
      dsimp only
      refine Rel.bind (rel_object hM fuel0 hc) ?_
      rintro r _ rest' hl' ⟨rfl, hc'⟩
      refine Rel.bind (rel_same (Checked.mono_skip_zero fuel0) (sim_skip_zero same_bisim (Nat.le_refl _)) rest') ?_
      rintro _ _ rest'' hl'' -
      refine ih ?_ _
      obtain ⟨h1, h2, h3, h4, h5, h6, h7⟩ := hc'
      close_inv

theorem rel_objects (fuel : Nat) {toks : List Tok} (h : toks.length ≤ N) :
    Rel S (Good S tgt (N + 1)) (parse_objects tgt fuel)
      (Obj.parse_objects tgt.toCfg fuel : OP _ (List (Object F))) toks fun b a _ => b = a := by
  unfold parse_objects Obj.parse_objects
  refine Rel.bind (rel_same (Checked.mono_skip_zero fuel) (sim_skip_zero same_bisim (Nat.le_refl _)) _) ?_
  rintro _ _ rest hl -
  refine rel_objects_loop hM fuel fuel ?_ _
  close_inv

theorem rel_objset (fuel : Nat) {toks : List Tok} (h : toks.length ≤ N) :
    Rel S (Good S tgt (N + 1)) (parse_objset tgt fuel)
      (Obj.parse_objset tgt.toCfg fuel : OP _ (ObjectSet F)) toks fun b a _ => b = a := by
  have hL : N < tgt.limits.limit := hM.limit
  unfold parse_objset Obj.parse_objset
  refine Rel.bind (r := fun b a _ => b = a) ?_ ?_
  · unfold Checked.parse_material_libraries Obj.parse_material_libraries
    refine Rel.bind (rel_same (Checked.mono_skip_zero fuel) (sim_skip_zero same_bisim (Nat.le_refl _)) _) ?_
    rintro _ _ rest hl -
    exact Rel.of_checked (Checked.rel_mtllibs_loop tgt.limits hL _ _ _ _ (by omega))
      (sim_mtllibs_loop same_bisim (Nat.le_refl _) (Nat.le_refl _) _)
  · rintro m _ rest hl rfl
    refine Rel.bind (rel_objects hM fuel (by omega)) ?_
    rintro os _ rest' hl' rfl
    exact Rel.pure rfl

end

end Verif.Obj.Width
