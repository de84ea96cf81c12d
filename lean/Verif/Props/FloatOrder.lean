import Verif.Props.Float

/-!
# Property C84: comparing numbers
-/

namespace Verif.Props

open Verif Verif.Spec

theorem place_num (s : Bool) (n : Nat) (h : n ≤ infBits) : ∃ p, place (.num s n h) = some p := by
  simp only [place]; split <;> exact ⟨_, rfl⟩

theorem place_lt {s s' : Bool} {n n' : Nat} {h : n ≤ infBits} {h' : n' ≤ infBits} {p p' : WithBot (WithTop ℚ)}
    (hp : place (.num s n h) = some p) (hp' : place (.num s' n' h') = some p') :
    p < p' ↔ F64.position s n < F64.position s' n' := by
  have pos : ∀ m, 0 ≤ bitsValue m := F64.bitsValue_nonneg
  have lt : ∀ a b, bitsValue a < bitsValue b ↔ a < b := fun a b => F64.bitsValue_strictMono.lt_iff_lt
  have ip := F64.infBits_pos
  have zero : ∀ a, bitsValue a = 0 ↔ a = 0 := fun a => by
    rw [← F64.bitsValue_zero, F64.bitsValue_strictMono.injective.eq_iff]
  simp only [place] at hp hp'
  by_cases hi : n = infBits <;> by_cases hi' : n' = infBits
  · rw [if_pos hi] at hp; rw [if_pos hi'] at hp'
    obtain rfl := Option.some.inj hp
    obtain rfl := Option.some.inj hp'
    cases s <;> cases s' <;> simp [F64.position, hi, hi']
    all_goals omega
  · rw [if_pos hi] at hp; rw [if_neg hi'] at hp'
    obtain rfl := Option.some.inj hp
    obtain rfl := Option.some.inj hp'
    cases s <;> cases s' <;> simp [F64.position, hi] <;> omega
  · rw [if_neg hi] at hp; rw [if_pos hi'] at hp'
    obtain rfl := Option.some.inj hp
    obtain rfl := Option.some.inj hp'
    have top : ∀ r : ℚ, ((r : WithTop ℚ) : WithBot (WithTop ℚ)) < ((⊤ : WithTop ℚ) : WithBot (WithTop ℚ)) := fun r =>
      WithBot.coe_lt_coe.mpr (WithTop.coe_lt_top r)
    cases s <;> cases s' <;> simp [F64.position, hi', -WithBot.coe_top, top] <;> omega
  · rw [if_neg hi] at hp; rw [if_neg hi'] at hp'
    obtain rfl := Option.some.inj hp
    obtain rfl := Option.some.inj hp'
    rw [WithBot.coe_lt_coe, WithTop.coe_lt_coe]
    have a := pos n
    have b := pos n'
    cases s <;> cases s' <;> simp only [signFactor, F64.position, Bool.false_eq_true, if_false, if_true, one_mul, neg_one_mul]
    · rw [lt]; omega
    · constructor
      · intro hc; linarith
      · intro hc; omega
    · constructor
      · intro hc
        by_contra hn
        have e1 : n = 0 := by omega
        have e2 : n' = 0 := by omega
        rw [e1, e2, F64.bitsValue_zero] at hc
        norm_num at hc
      · intro hc
        rcases lt_or_eq_of_le a with ha | ha
        · linarith
        · rcases lt_or_eq_of_le b with hb | hb
          · linarith
          · rw [eq_comm, zero] at ha hb
            omega
    · rw [neg_lt_neg_iff, lt]; omega

/-- **C84** `partial_cmp` is the order of the numbers, from minus infinity to infinity, and nothing for NaN. -/
theorem C84_order (x y : F64) (o : Ordering) : FloatCmp.fcmp x y = some o ↔
    ∃ p q, place x = some p ∧ place y = some q ∧
      match o with
      | .lt => p < q
      | .eq => p = q
      | .gt => q < p := by
  cases x with
  | nan => simp [FloatCmp.fcmp, place]
  | num s n h => cases y with
    | nan => simp [FloatCmp.fcmp, place]
    | num s' n' h' =>
      obtain ⟨p, hp⟩ := place_num s n h
      obtain ⟨q, hq⟩ := place_num s' n' h'
      have h1 := place_lt hp hq
      have h2 := place_lt hq hp
      have key : FloatCmp.fcmp (F64.num s n h) (F64.num s' n' h') =
        some (compare (F64.position s n) (F64.position s' n')) := rfl
      rw [key, Option.some.injEq]
      have e : (∃ p q, place (.num s n h) = some p ∧ place (.num s' n' h') = some q ∧
          match o with
          | .lt => p < q
          | .eq => p = q
          | .gt => q < p) ↔ match o with
          | .lt => p < q
          | .eq => p = q
          | .gt => q < p := by
        constructor
        · rintro ⟨p', q', hp', hq', h⟩
          rw [hp] at hp'; rw [hq] at hq'
          obtain rfl := Option.some.inj hp'
          obtain rfl := Option.some.inj hq'
          exact h
        · exact fun h => ⟨p, q, hp, hq, h⟩
      rw [e]
      cases o
      · simp only [Int.compare_eq_lt]; exact h1.symm
      · simp only [Int.compare_eq_eq]
        constructor
        · intro hc
          exact le_antisymm (not_lt.mp fun hl => by have := h2.mp hl; omega) (not_lt.mp fun hl => by have := h1.mp hl; omega)
        · intro hc
          subst hc
          have a := mt h1.mpr (lt_irrefl _)
          have b := mt h2.mpr (lt_irrefl _)
          omega
      · simp only [Int.compare_eq_gt]; exact h2.symm

/-- **C84** `==` is the equality of the numbers: zero has two signs, and NaN is not equal to anything. -/
theorem C84_equal (x y : F64) : FloatEq.feq x y = true ↔ ∃ p, place x = some p ∧ place y = some p := by
  have key : FloatEq.feq x y = true ↔ FloatCmp.fcmp x y = some .eq := by
    cases x with
    | nan => simp [FloatCmp.fcmp, FloatEq.feq]
    | num s n h => cases y with
      | nan => simp [FloatCmp.fcmp, FloatEq.feq]
      | num s' n' h' =>
        have e : FloatEq.feq (F64.num s n h) (F64.num s' n' h') = (n == n' && (s == s' || n == 0)) := rfl
        have e' : FloatCmp.fcmp (F64.num s n h) (F64.num s' n' h') =
          some (compare (F64.position s n) (F64.position s' n')) := rfl
        rw [e, e', Option.some.injEq, Int.compare_eq_eq]
        cases s <;> cases s' <;> simp [F64.position] <;> omega
  rw [key, C84_order]
  constructor
  · rintro ⟨p, q, h1, h2, rfl⟩; exact ⟨p, h1, h2⟩
  · rintro ⟨p, h1, h2⟩; exact ⟨p, p, h1, h2, rfl⟩

/-- The two numbers have the same place. -/
def SamePlace (x y : F64) : Prop := ∃ p, place x = some p ∧ place y = some p

/-- **C84** Two object sets are equal exactly if they differ at most in their numbers and these are pairwise
at the same place. -/
theorem C84_obj (r r' : Obj.ObjectSet F64) : r.eq r' = true ↔ objectsShape r = objectsShape r' ∧
    List.Forall₂ SamePlace (objectsNumbers r) (objectsNumbers r') := by
  rw [C73_equality_obj]
  simp only [C84_equal]
  rfl

/-- **C84** What is looked up for two indices is equal exactly if it has the same form and the numbers are
pairwise at the same place. -/
theorem C84_triple (t t' : Obj.VTNTriple F64) : t.eq t' = true ↔ tripleForm t = tripleForm t' ∧
    List.Forall₂ SamePlace (tripleNumbers t) (tripleNumbers t') := by
  rw [C73_equality_triple]
  simp only [C84_equal]
  rfl

/-- **C84** Two material sets are equal exactly if they differ at most in their numbers and these are pairwise
at the same place. -/
theorem C84_mtl (r r' : Mtl.MaterialSet F64) : r.eq r' = true ↔ materialsShape r = materialsShape r' ∧
    List.Forall₂ SamePlace (materialsNumbers r) (materialsNumbers r') := by
  rw [C73_equality_mtl]
  simp only [C84_equal]
  rfl

theorem SamePlace.symm {x y : F64} : SamePlace x y → SamePlace y x := fun ⟨p, h1, h2⟩ => ⟨p, h2, h1⟩

theorem SamePlace.trans {x y z : F64} : SamePlace x y → SamePlace y z → SamePlace x z := by
  rintro ⟨p, h1, h2⟩ ⟨q, h3, h4⟩
  rw [h2] at h3
  obtain rfl := Option.some.inj h3
  exact ⟨p, h1, h4⟩

theorem forall₂_symm {α : Type} {R : α → α → Prop} (h : ∀ {x y}, R x y → R y x) :
    ∀ {a b : List α}, List.Forall₂ R a b → List.Forall₂ R b a
  | _, _, .nil => .nil
  | _, _, .cons hd tl => .cons (h hd) (forall₂_symm h tl)

theorem forall₂_trans {α : Type} {R : α → α → Prop} (h : ∀ x y z, R x y → R y z → R x z) :
    ∀ {a b c : List α}, List.Forall₂ R a b → List.Forall₂ R b c → List.Forall₂ R a c
  | _, _, _, .nil, .nil => .nil
  | _, _, _, .cons hd tl, .cons hd' tl' => .cons (h _ _ _ hd hd') (forall₂_trans h tl tl')

/-- **C84** Equality of results is symmetric. -/
theorem C84_symm : (∀ r r' : Obj.ObjectSet F64, r.eq r' = true → r'.eq r = true) ∧
    ∀ r r' : Mtl.MaterialSet F64, r.eq r' = true → r'.eq r = true := by
  constructor
  · intro r r' h
    rw [C84_obj] at h ⊢
    exact ⟨h.1.symm, forall₂_symm SamePlace.symm h.2⟩
  · intro r r' h
    rw [C84_mtl] at h ⊢
    exact ⟨h.1.symm, forall₂_symm SamePlace.symm h.2⟩

/-- **C84** Equality of results is transitive. -/
theorem C84_trans : (∀ a b c : Obj.ObjectSet F64, a.eq b = true → b.eq c = true → a.eq c = true) ∧
    ∀ a b c : Mtl.MaterialSet F64, a.eq b = true → b.eq c = true → a.eq c = true := by
  constructor
  · intro a b c h h'
    rw [C84_obj] at h h' ⊢
    exact ⟨h.1.trans h'.1, forall₂_trans (R := SamePlace) (fun _ _ _ => SamePlace.trans) h.2 h'.2⟩
  · intro a b c h h'
    rw [C84_mtl] at h h' ⊢
    exact ⟨h.1.trans h'.1, forall₂_trans (R := SamePlace) (fun _ _ _ => SamePlace.trans) h.2 h'.2⟩

/-- One number is to the left of the other. -/
def Left (x y : F64) : Prop := ∃ p q, place x = some p ∧ place y = some q ∧ p < q

/-- **C84** A color is less than another if at the first of red, green and blue where they are not at the same
place its number is to the left; they compare as equal if there is no such component. -/
theorem C84_color (c d : Mtl.Color F64) :
    (c.partial_cmp d = some .eq ↔ SamePlace c.r d.r ∧ SamePlace c.g d.g ∧ SamePlace c.b d.b) ∧
    (c.partial_cmp d = some .lt ↔ Left c.r d.r ∨ SamePlace c.r d.r ∧
      (Left c.g d.g ∨ SamePlace c.g d.g ∧ Left c.b d.b)) ∧
    (c.partial_cmp d = some .gt ↔ d.partial_cmp c = some .lt) := by
  have heq : ∀ x y : F64, FloatCmp.fcmp x y = some .eq ↔ SamePlace x y := fun x y => by
    rw [C84_order]
    constructor
    · rintro ⟨p, q, h1, h2, rfl⟩; exact ⟨p, h1, h2⟩
    · rintro ⟨p, h1, h2⟩; exact ⟨p, p, h1, h2, rfl⟩
  have hlt : ∀ x y : F64, FloatCmp.fcmp x y = some .lt ↔ Left x y := fun x y => by rw [C84_order]; rfl
  have hgt : ∀ x y : F64, FloatCmp.fcmp x y = some .gt ↔ FloatCmp.fcmp y x = some .lt := fun x y => by
    rw [C84_order, C84_order]
    constructor
    · rintro ⟨p, q, h1, h2, h⟩; exact ⟨q, p, h2, h1, h⟩
    · rintro ⟨p, q, h1, h2, h⟩; exact ⟨q, p, h2, h1, h⟩
  have hsym : ∀ x y : F64, FloatCmp.fcmp x y = some .eq ↔ FloatCmp.fcmp y x = some .eq := fun x y => by
    rw [heq, heq]; exact ⟨SamePlace.symm, SamePlace.symm⟩
  refine ⟨?_, ?_, ?_⟩
  · rw [← heq, ← heq, ← heq, Mtl.Color.partial_cmp]
    rcases FloatCmp.fcmp c.r d.r with _ | _ | _ | _ <;> rcases FloatCmp.fcmp c.g d.g with _ | _ | _ | _ <;> simp
  · rw [← heq, ← heq, ← hlt, ← hlt, ← hlt, Mtl.Color.partial_cmp]
    rcases FloatCmp.fcmp c.r d.r with _ | _ | _ | _ <;> rcases FloatCmp.fcmp c.g d.g with _ | _ | _ | _ <;> simp
  · have a1 := hgt c.r d.r
    have a2 := hgt c.g d.g
    have a3 := hgt c.b d.b
    have b1 := hsym c.r d.r
    have b2 := hsym c.g d.g
    simp only [Mtl.Color.partial_cmp]
    revert a1 a2 a3 b1 b2
    rcases FloatCmp.fcmp c.r d.r with _ | _ | _ | _ <;> rcases FloatCmp.fcmp d.r c.r with _ | _ | _ | _ <;>
      rcases FloatCmp.fcmp c.g d.g with _ | _ | _ | _ <;> rcases FloatCmp.fcmp d.g c.g with _ | _ | _ | _ <;> simp

theorem Left.trans {x y z : F64} : Left x y → Left y z → Left x z := by
  rintro ⟨p, q, h1, h2, h⟩ ⟨q', r, h3, h4, h'⟩
  rw [h2] at h3
  obtain rfl := Option.some.inj h3
  exact ⟨p, r, h1, h4, h.trans h'⟩

theorem Left.same {x y z : F64} : Left x y → SamePlace y z → Left x z := by
  rintro ⟨p, q, h1, h2, h⟩ ⟨q', h3, h4⟩
  rw [h2] at h3
  obtain rfl := Option.some.inj h3
  exact ⟨p, q, h1, h4, h⟩

theorem SamePlace.left {x y z : F64} : SamePlace x y → Left y z → Left x z := by
  rintro ⟨p, h1, h2⟩ ⟨q, r, h3, h4, h⟩
  rw [h2] at h3
  obtain rfl := Option.some.inj h3
  exact ⟨p, r, h1, h4, h⟩

/-- **C84** The order of colors is transitive, and no color is less than itself. -/
theorem C84_color_order :
    (∀ a b c : Mtl.Color F64, a.partial_cmp b = some .lt → b.partial_cmp c = some .lt → a.partial_cmp c = some .lt) ∧
    ∀ a : Mtl.Color F64, a.partial_cmp a ≠ some .lt := by
  constructor
  · intro a b c h h'
    rw [(C84_color _ _).2.1] at h h' ⊢
    rcases h with h | ⟨e, h | ⟨e2, h⟩⟩ <;> rcases h' with h' | ⟨e', h' | ⟨e2', h'⟩⟩
    · exact .inl (h.trans h')
    · exact .inl (h.same e')
    · exact .inl (h.same e')
    · exact .inl (e.left h')
    · exact .inr ⟨e.trans e', .inl (h.trans h')⟩
    · exact .inr ⟨e.trans e', .inl (h.same e2')⟩
    · exact .inl (e.left h')
    · exact .inr ⟨e.trans e', .inl (e2.left h')⟩
    · exact .inr ⟨e.trans e', .inr ⟨e2.trans e2', h.trans h'⟩⟩
  · intro a h
    have irr : ∀ x, ¬ Left x x := by
      rintro x ⟨p, q, h1, h2, h⟩
      rw [h1] at h2
      obtain rfl := Option.some.inj h2
      exact lt_irrefl _ h
    rw [(C84_color _ _).2.1] at h
    rcases h with h | ⟨-, h | ⟨-, h⟩⟩ <;> exact irr _ h

/-- Zero and minus zero, NaN, infinity; and two texts with equal results. -/
example : FloatEq.feq (FloatSem.value b!"0" : F64) (FloatSem.value b!"-0") = true ∧
    (FloatSem.value b!"0" : F64) ≠ FloatSem.value b!"-0" ∧
    FloatEq.feq (FloatSem.value b!"nan" : F64) (FloatSem.value b!"nan") = false ∧
    FloatCmp.fcmp (FloatSem.value b!"-inf" : F64) (FloatSem.value b!"-1e400") = some .eq ∧
    FloatCmp.fcmp (FloatSem.value b!"-1e300" : F64) (FloatSem.value b!"1e-300") = some .lt ∧
    FloatCmp.fcmp (FloatSem.value b!"nan" : F64) (FloatSem.value b!"1") = none := by
  decide +kernel

example : (match (Mtl.parse b!"newmtl a\nKd 0 0.5 1\n" : Out Mtl.ErrorKind (Mtl.MaterialSet F64)),
    (Mtl.parse b!"newmtl a\nKd -0 5e-1 1.\n" : Out Mtl.ErrorKind (Mtl.MaterialSet F64)),
    (Mtl.parse b!"newmtl a\nKd 0 0.5 2\n" : Out Mtl.ErrorKind (Mtl.MaterialSet F64)) with
    | .ok r, .ok r', .ok s => (r.eq r', r.eq s,
        (r.materials.head?.bind fun m => s.materials.head?.bind fun m' => m.color_diffuse.partial_cmp m'.color_diffuse))
    | _, _, _ => (false, false, none)) = (true, false, some .lt) := by
  decide +kernel

end Verif.Props
