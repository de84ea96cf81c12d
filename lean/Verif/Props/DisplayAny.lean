import Verif.Props.Summary

/-!
# Property C86

The display of indices, elements and objects that need not come from the parser.
-/

namespace Verif.Props

open Verif Verif.Obj Verif.Spec Verif.Spec.Obj

variable {cfg : Cfg}

/-- The numbers of an index. -/
def parts : VTNIndex → List Nat
  | .V v => [v]
  | .VT v t => [v, t]
  | .VN v n => [v, n]
  | .VTN v t n => [v, t, n]

/-- The reference displayed: one is added to every number, modulo 2^64. -/
def shownRef : VTNIndex → Ref
  | .V v => ⟨(v + 1) % 2 ^ 64, none, none⟩
  | .VT v t => ⟨(v + 1) % 2 ^ 64, some ((t + 1) % 2 ^ 64), none⟩
  | .VN v n => ⟨(v + 1) % 2 ^ 64, none, some ((n + 1) % 2 ^ 64)⟩
  | .VTN v t n => ⟨(v + 1) % 2 ^ 64, some ((t + 1) % 2 ^ 64), some ((n + 1) % 2 ^ 64)⟩

/-- The letter an element starts with. -/
def letter : Element → Bytes
  | .Point _ => b!"p"
  | .Line _ _ => b!"l"
  | .Face _ _ _ => b!"f"

/-- All numbers of an index fit a `usize`. -/
def Fits (x : VTNIndex) : Prop := ∀ n ∈ parts x, n < 2 ^ 64

theorem incr_some {n : Nat} (h : n < 2 ^ 64) (h' : cfg.overflow_checks = false ∨ n ≠ 2 ^ 64 - 1) :
    incr cfg n = some ((n + 1) % 2 ^ 64) := by
  unfold incr usizeMax
  by_cases hn : n < 2 ^ 64 - 1
  · rw [if_pos hn, Nat.mod_eq_of_lt (by omega)]
  · obtain rfl : n = 2 ^ 64 - 1 := by omega
    rcases h' with h' | h'
    · rw [if_neg hn, h']; rfl
    · exact absurd rfl h'

theorem incr_none (h : cfg.overflow_checks = true) : incr cfg (2 ^ 64 - 1) = none := by
  unfold incr usizeMax
  rw [if_neg (by omega), if_pos h]

/-- **C86** The text of an index: every number plus one, modulo 2^64 in a build without overflow checks. -/
theorem C86_index_text (x : VTNIndex) (hx : Fits x)
    (h : cfg.overflow_checks = false ∨ 2 ^ 64 - 1 ∉ parts x) : x.display cfg = some (shownRef x).text := by
  have k : ∀ n ∈ parts x, incr cfg n = some ((n + 1) % 2 ^ 64) := fun n hn =>
    incr_some (hx n hn) (h.imp_right fun h e => h (e ▸ hn))
  cases x <;> simp only [parts, List.mem_cons, List.not_mem_nil, or_false, forall_eq_or_imp, forall_eq] at k <;>
    simp only [VTNIndex.display, shownRef, Ref.text, k] <;> rfl

/-- **C86** Displaying an index panics exactly in a build with overflow checks and with `usize::MAX` in it. -/
theorem C86_index_panics (x : VTNIndex) (hx : Fits x) :
    x.display cfg = none ↔ cfg.overflow_checks = true ∧ 2 ^ 64 - 1 ∈ parts x := by
  constructor
  · intro h
    by_contra hc
    rw [not_and_or, Bool.not_eq_true] at hc
    rw [C86_index_text x hx hc] at h
    simp at h
  · rintro ⟨h1, h2⟩
    have k := incr_none h1
    cases x <;> simp only [parts, List.mem_cons, List.not_mem_nil, or_false] at h2 <;>
      simp only [VTNIndex.display]
    · subst h2; rw [k]; rfl
    all_goals
      rcases h2 with h2 | h2
      · subst h2; rw [k]; rfl
    · subst h2; rw [k]; rename_i v; cases incr cfg v <;> rfl
    · subst h2; rw [k]; rename_i v; cases incr cfg v <;> rfl
    · rename_i v t n
      rcases h2 with h2 | h2 <;> subst h2 <;> rw [k] <;> cases incr cfg v <;> try rfl
      · cases incr cfg t <;> rfl

/-- Different references have different texts. -/
theorem refText_injective {r s : Ref} (h : r.text = s.text) : r = s := by
  have hsl : ∀ n, ∀ c ∈ showNat n, c ≠ 47 := fun n c hc => (showNat_bytes n c hc).1
  have e0 : ∀ n, splitByte 47 (showNat n) = [showNat n] := fun n => splitByte_none _ (hsl n)
  have e1 : ∀ n (x : Bytes), splitByte 47 (showNat n ++ 47 :: x) = showNat n :: splitByte 47 x :=
    fun n x => splitByte_cons _ _ (hsl n)
  have e2 : ∀ x : Bytes, splitByte 47 (47 :: x) = [] :: splitByte 47 x := fun x => by simp [splitByte]
  have ne : ∀ n, showNat n ≠ [] := fun n => (showNat_spec n).1
  have ne' : ∀ n, [] ≠ showNat n := fun n => (ne n).symm
  have inj : ∀ {n m}, showNat n = showNat m ↔ n = m := ⟨showNat_injective, congrArg _⟩
  have h := congrArg (splitByte 47) h
  obtain ⟨v, t, n⟩ := r
  obtain ⟨v', t', n'⟩ := s
  cases t <;> cases n <;> cases t' <;> cases n' <;> simp [Ref.text, e0, e1, e2, inj, ne, ne'] at h ⊢ <;> exact h

theorem shownRef_injective {x y : VTNIndex} (hx : Fits x) (hy : Fits y) (h : shownRef x = shownRef y) : x = y := by
  unfold Fits at hx hy
  cases x <;> cases y <;> simp [shownRef, parts] at h hx hy ⊢ <;> omega

/-- **C86** Different indices are displayed differently, in every build. -/
theorem C86_index_injective {x y : VTNIndex} (hx : Fits x) (hy : Fits y) {text : Bytes}
    (h : x.display cfg = some text) (h' : y.display cfg = some text) : x = y := by
  have k : ∀ z : VTNIndex, Fits z → z.display cfg = some text → (shownRef z).text = text := by
    intro z hz h
    have hc : ¬ (cfg.overflow_checks = true ∧ 2 ^ 64 - 1 ∈ parts z) := fun hc => by
      rw [(C86_index_panics z hz).mpr hc] at h
      simp at h
    rw [not_and_or, Bool.not_eq_true] at hc
    rw [C86_index_text z hz hc] at h
    exact Option.some.inj h
  exact shownRef_injective hx hy (refText_injective ((k x hx h).trans (k y hy h').symm))

/-- **C86** The text of an element: `p`, `l` or `f` and its indices, with two spaces in between. -/
theorem C86_element_text (e : Element) (he : ∀ x ∈ indices e, Fits x)
    (h : cfg.overflow_checks = false ∨ ∀ x ∈ indices e, 2 ^ 64 - 1 ∉ parts x) :
    e.display cfg = some (spaced (letter e :: (indices e).map fun x => (shownRef x).text)) := by
  have k : ∀ x ∈ indices e, x.display cfg = some (shownRef x).text := fun x hx =>
    C86_index_text x (he x hx) (h.imp_right fun h => h x hx)
  cases e <;> simp only [indices, List.mem_cons, List.not_mem_nil, or_false, forall_eq_or_imp, forall_eq] at k <;>
    simp [Element.display, k, letter, indices, spaced, List.intercalate]

/-- **C86** Displaying an element panics exactly in a build with overflow checks and with `usize::MAX` in it. -/
theorem C86_element_panics (e : Element) (he : ∀ x ∈ indices e, Fits x) :
    e.display cfg = none ↔ cfg.overflow_checks = true ∧ ∃ x ∈ indices e, 2 ^ 64 - 1 ∈ parts x := by
  constructor
  · intro h
    by_contra hc
    rw [not_and_or, Bool.not_eq_true] at hc
    rw [C86_element_text e he (hc.imp_right fun h x hx hm => h ⟨x, hx, hm⟩)] at h
    simp at h
  · rintro ⟨h1, x, hx, hm⟩
    have k := (C86_index_panics x (he x hx)).mpr ⟨h1, hm⟩
    cases e <;> simp only [indices, List.mem_cons, List.not_mem_nil, or_false] at hx <;>
      simp only [Element.display]
    · subst hx; rw [k]; rfl
    · rename_i a b
      rcases hx with rfl | rfl <;> rw [k]
      · rfl
      · cases a.display cfg <;> rfl
    · rename_i a b c
      rcases hx with rfl | rfl | rfl <;> rw [k]
      · rfl
      · cases a.display cfg <;> rfl
      · cases a.display cfg <;> cases b.display cfg <;> rfl

/-- **C86** Different elements are displayed differently, in every build. -/
theorem C86_element_injective {e e' : Element} (he : ∀ x ∈ indices e, Fits x) (he' : ∀ x ∈ indices e', Fits x)
    {text : Bytes} (h : e.display cfg = some text) (h' : e'.display cfg = some text) : e = e' := by
  have k : ∀ e : Element, (∀ x ∈ indices e, Fits x) → e.display cfg = some text →
      spaced (letter e :: (indices e).map fun x => (shownRef x).text) = text := by
    intro e he h
    have hc : ¬ (cfg.overflow_checks = true ∧ ∃ x ∈ indices e, 2 ^ 64 - 1 ∈ parts x) := fun hc => by
      rw [(C86_element_panics e he).mpr hc] at h
      simp at h
    rw [not_and_or, Bool.not_eq_true] at hc
    rw [C86_element_text e he (hc.imp_right fun h x hx hm => h ⟨x, hx, hm⟩)] at h
    exact Option.some.inj h
  have w : ∀ e : Element, ∀ w ∈ letter e :: (indices e).map fun x => (shownRef x).text, Word w := by
    intro e w hw
    rw [List.mem_cons, List.mem_map] at hw
    rcases hw with rfl | ⟨x, -, rfl⟩
    · cases e <;> simp [letter, Word]
    · exact word_ref _
  have hs := spaced_inj (w e) (w e') ((k e he h).trans (k e' he' h').symm)
  have key : ∀ x ∈ indices e, ∀ y ∈ indices e', (shownRef x).text = (shownRef y).text → x = y := fun x hx y hy h =>
    shownRef_injective (he x hx) (he' y hy) (refText_injective h)
  cases e <;> cases e' <;> simp [letter, indices] at hs key ⊢
  all_goals grind

/-! ## Objects -/

section
variable {F : Type} [FloatShow F]

theorem compose_set_none {T : Type} {f : T → Option Bytes} {set : List T} {name : Bytes} :
    compose_set f set name = none ↔ ∃ x, (set.head? = some x ∨ set.getLast? = some x) ∧ f x = none := by
  unfold compose_set
  cases set with
  | nil => simp
  | cons a r =>
    have hl : (a :: r).getLast? = some ((a :: r).getLast (by simp)) := List.getLast?_eq_some_getLast (by simp)
    simp only [hl, List.head?_cons, Option.some.injEq]
    have e : (∃ x, (a = x ∨ (a :: r).getLast (by simp) = x) ∧ f x = none) ↔
        f a = none ∨ f ((a :: r).getLast (by simp)) = none := by
      constructor
      · rintro ⟨x, rfl | rfl, h⟩
        · exact .inl h
        · exact .inr h
      · rintro (h | h)
        · exact ⟨_, .inl rfl, h⟩
        · exact ⟨_, .inr rfl, h⟩
    rw [e]
    cases f a <;> cases f ((a :: r).getLast (by simp)) <;> simp

theorem compose_none {o : Object F} :
    compose cfg o = none ↔ compose_set (Element.display cfg) o.element_set b!"element" = none := by
  have k : ∀ {T : Type} (f : T → Bytes) (set : List T) (name : Bytes),
      compose_set (some ∘ f) set name = some (joinLines (setLines (set.map f) name)) :=
    fun f set name => compose_set_eq (fun _ _ => rfl) name
  unfold compose
  rw [k, k, k, k, k]
  cases compose_set (Element.display cfg) o.element_set b!"element" <;> simp

/-- **C86** Displaying an object panics exactly in a build with overflow checks, with `usize::MAX` in an
index of its first or its last element. -/
theorem C86_object_panics {o : Object F} (ho : ∀ e ∈ o.element_set, ∀ x ∈ indices e, Fits x) :
    o.display cfg = none ↔ cfg.overflow_checks = true ∧
      ∃ e, (o.element_set.head? = some e ∨ o.element_set.getLast? = some e) ∧
        ∃ x ∈ indices e, 2 ^ 64 - 1 ∈ parts x := by
  have hm : ∀ e, (o.element_set.head? = some e ∨ o.element_set.getLast? = some e) → e ∈ o.element_set := by
    rintro e (h | h)
    · exact List.mem_of_head? h
    · exact List.mem_of_getLast? h
  rw [Object.display, compose_none, compose_set_none]
  constructor
  · rintro ⟨e, he, h⟩
    obtain ⟨h1, h2⟩ := (C86_element_panics e (ho e (hm e he))).mp h
    exact ⟨h1, e, he, h2⟩
  · rintro ⟨h1, e, he, h2⟩
    exact ⟨e, he, (C86_element_panics e (ho e (hm e he))).mpr ⟨h1, h2⟩⟩

/-- **C86** Displaying an object set panics exactly if displaying one of its objects does. -/
theorem C86_set_panics {r : ObjectSet F} : r.display cfg = none ↔ ∃ o ∈ r.objects, o.display cfg = none := by
  have key : ∀ (os : List (Object F)) (s : Bytes), compose_all cfg os s = none ↔ ∃ o ∈ os, o.display cfg = none := by
    intro os
    induction os with
    | nil => intro s; simp [compose_all]
    | cons o os ih =>
      intro s
      simp only [compose_all, List.mem_cons, exists_eq_or_imp, Object.display]
      cases h : compose cfg o with
      | none => simp
      | some t => simpa [h, Object.display] using ih _
  rw [← key r.objects b!"ObjectSet {\n"]
  unfold ObjectSet.display
  cases compose_all cfg r.objects b!"ObjectSet {\n" <;> simp

end

/-- The largest `usize` is displayed as 0, or not at all. -/
example : Fits (.VT (2 ^ 64 - 1) 4) ∧ (VTNIndex.VT (2 ^ 64 - 1) 4).display release = some b!"0/5" ∧
    (VTNIndex.VT (2 ^ 64 - 1) 4).display debug = none := by
  refine ⟨?_, ?_, ?_⟩
  · unfold Fits; decide +kernel
  · decide +kernel
  · decide +kernel

example : (Element.Line (.VN (2 ^ 64 - 2) 0) (.VN 7 8)).display debug = some b!"l  18446744073709551615//1  8//9" := by
  decide +kernel

end Verif.Props
