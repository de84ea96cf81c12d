import Verif.Model.WidthDisplay
import Verif.Props.Width
import Verif.Props.DisplayAny

/-!
# Property C104: the display of values on a target of any pointer width
-/

namespace Verif.Props

open Verif Verif.Obj Verif.Spec Verif.Spec.Obj Verif.Obj.Width

variable {tgt : Target}

/-- The reference displayed on a target with pointers of `w` bits: one is added to every number, modulo 2^w. -/
def shownRefAt (w : Nat) : VTNIndex → Ref
  | .V v => ⟨(v + 1) % 2 ^ w, none, none⟩
  | .VT v t => ⟨(v + 1) % 2 ^ w, some ((t + 1) % 2 ^ w), none⟩
  | .VN v n => ⟨(v + 1) % 2 ^ w, none, some ((n + 1) % 2 ^ w)⟩
  | .VTN v t n => ⟨(v + 1) % 2 ^ w, some ((t + 1) % 2 ^ w), some ((n + 1) % 2 ^ w)⟩

theorem incrAt_some {n : Nat} (h : n < 2 ^ tgt.bits) (h' : tgt.overflow_checks = false ∨ n ≠ 2 ^ tgt.bits - 1) :
    Width.incr tgt n = some ((n + 1) % 2 ^ tgt.bits) := by
  unfold Width.incr usizeMaxAt
  by_cases hn : n < 2 ^ tgt.bits - 1
  · rw [if_pos hn, Nat.mod_eq_of_lt (by omega)]
  · obtain rfl : n = 2 ^ tgt.bits - 1 := by omega
    rcases h' with h' | h'
    · rw [if_neg hn, h', Nat.sub_add_cancel (by omega), Nat.mod_self]; rfl
    · exact absurd rfl h'

theorem incrAt_none (h : tgt.overflow_checks = true) : Width.incr tgt (2 ^ tgt.bits - 1) = none := by
  unfold Width.incr usizeMaxAt
  rw [if_neg (by omega), if_pos h]

/-- **C104** The text of an index: every number plus one, modulo 2^w in a build without overflow checks. -/
theorem C104_index_text (x : VTNIndex) (hx : ∀ n ∈ parts x, n < 2 ^ tgt.bits)
    (h : tgt.overflow_checks = false ∨ 2 ^ tgt.bits - 1 ∉ parts x) :
    displayIndex tgt x = some (shownRefAt tgt.bits x).text := by
  have k : ∀ n ∈ parts x, Width.incr tgt n = some ((n + 1) % 2 ^ tgt.bits) := fun n hn =>
    incrAt_some (hx n hn) (h.imp_right fun h e => h (e ▸ hn))
  cases x <;> simp only [parts, List.mem_cons, List.not_mem_nil, or_false, forall_eq_or_imp, forall_eq] at k <;>
    simp only [displayIndex, shownRefAt, Ref.text, k] <;> rfl

/-- **C104** Displaying an index panics exactly in a build with overflow checks and with `usize::MAX` in it. -/
theorem C104_index_panics (x : VTNIndex) (hx : ∀ n ∈ parts x, n < 2 ^ tgt.bits) :
    displayIndex tgt x = none ↔ tgt.overflow_checks = true ∧ 2 ^ tgt.bits - 1 ∈ parts x := by
  constructor
  · intro h
    by_contra hc
    rw [not_and_or, Bool.not_eq_true] at hc
    rw [C104_index_text x hx hc] at h
    simp at h
  · rintro ⟨h1, h2⟩
    have k := incrAt_none h1
    cases x <;> simp only [parts, List.mem_cons, List.not_mem_nil, or_false] at h2 <;> simp only [displayIndex]
    · rw [← h2, k]; rfl
    · rcases h2 with h2 | h2 <;> rw [← h2, k]
      · rfl
      · cases Width.incr tgt _ <;> rfl
    · rcases h2 with h2 | h2 <;> rw [← h2, k]
      · rfl
      · cases Width.incr tgt _ <;> rfl
    · rcases h2 with h2 | h2 | h2 <;> rw [← h2, k]
      · rfl
      · cases Width.incr tgt _ <;> rfl
      · rename_i a b c
        cases Width.incr tgt a <;> cases Width.incr tgt b <;> rfl

/-- **C104** The text of an element. -/
theorem C104_element_text (e : Element) (he : ∀ x ∈ indices e, ∀ n ∈ parts x, n < 2 ^ tgt.bits)
    (h : tgt.overflow_checks = false ∨ ∀ x ∈ indices e, 2 ^ tgt.bits - 1 ∉ parts x) :
    displayElement tgt e = some (spaced (letter e :: (indices e).map fun x => (shownRefAt tgt.bits x).text)) := by
  have k : ∀ x ∈ indices e, displayIndex tgt x = some (shownRefAt tgt.bits x).text := fun x hx =>
    C104_index_text x (he x hx) (h.imp_right fun h => h x hx)
  cases e <;> simp only [indices, List.mem_cons, List.not_mem_nil, or_false, forall_eq_or_imp, forall_eq] at k <;>
    simp [displayElement, k, letter, indices, spaced, List.intercalate]

/-- **C104** Displaying an element panics exactly in a build with overflow checks and with `usize::MAX` in it. -/
theorem C104_element_panics (e : Element) (he : ∀ x ∈ indices e, ∀ n ∈ parts x, n < 2 ^ tgt.bits) :
    displayElement tgt e = none ↔ tgt.overflow_checks = true ∧ ∃ x ∈ indices e, 2 ^ tgt.bits - 1 ∈ parts x := by
  constructor
  · intro h
    by_contra hc
    rw [not_and_or, Bool.not_eq_true] at hc
    rw [C104_element_text e he (hc.imp_right fun h x hx hm => h ⟨x, hx, hm⟩)] at h
    simp at h
  · rintro ⟨h1, x, hx, hm⟩
    have k := (C104_index_panics x (he x hx)).mpr ⟨h1, hm⟩
    cases e <;> simp only [indices, List.mem_cons, List.not_mem_nil, or_false] at hx <;> simp only [displayElement]
    · rw [← hx, k]; rfl
    · rcases hx with hx | hx <;> rw [← hx, k]
      · rfl
      · cases displayIndex tgt _ <;> rfl
    · rcases hx with hx | hx | hx <;> rw [← hx, k]
      · rfl
      · cases displayIndex tgt _ <;> rfl
      · rename_i a b c
        cases displayIndex tgt a <;> cases displayIndex tgt b <;> rfl

section
variable {F : Type} [FloatShow F]

theorem composeAt_none {o : Object F} :
    displayObject tgt o = none ↔ compose_set (displayElement tgt) o.element_set b!"element" = none := by
  have k : ∀ {T : Type} (f : T → Bytes) (set : List T) (name : Bytes),
      compose_set (some ∘ f) set name = some (joinLines (setLines (set.map f) name)) :=
    fun f set name => compose_set_eq (fun _ _ => rfl) name
  unfold displayObject
  rw [k, k, k, k, k]
  cases compose_set (displayElement tgt) o.element_set b!"element" <;> simp

/-- **C104** Displaying an object panics exactly in a build with overflow checks, with `usize::MAX` in an
index of its first or its last element. -/
theorem C104_object_panics {o : Object F} (ho : ∀ e ∈ o.element_set, ∀ x ∈ indices e, ∀ n ∈ parts x, n < 2 ^ tgt.bits) :
    displayObject tgt o = none ↔ tgt.overflow_checks = true ∧
      ∃ e, (o.element_set.head? = some e ∨ o.element_set.getLast? = some e) ∧
        ∃ x ∈ indices e, 2 ^ tgt.bits - 1 ∈ parts x := by
  have hm : ∀ e, (o.element_set.head? = some e ∨ o.element_set.getLast? = some e) → e ∈ o.element_set := by
    rintro e (h | h)
    · exact List.mem_of_head? h
    · exact List.mem_of_getLast? h
  rw [composeAt_none, compose_set_none]
  constructor
  · rintro ⟨e, he, h⟩
    obtain ⟨h1, h2⟩ := (C104_element_panics e (ho e (hm e he))).mp h
    exact ⟨h1, e, he, h2⟩
  · rintro ⟨h1, e, he, h2⟩
    exact ⟨e, he, (C104_element_panics e (ho e (hm e he))).mpr ⟨h1, h2⟩⟩

theorem compose_set_congr {T : Type} {f g : T → Option Bytes} {set : List T} (h : ∀ x ∈ set, f x = g x) (name : Bytes) :
    compose_set f set name = compose_set g set name := by
  unfold compose_set
  cases set with
  | nil => rfl
  | cons a r => simp only [h a (by simp), h _ (List.getLast_mem (by simp))]

theorem displaySet_congr {cfg : Cfg} {r : ObjectSet F}
    (h : ∀ o ∈ r.objects, ∀ e ∈ o.element_set, displayElement tgt e = e.display cfg) :
    displaySet tgt r = r.display cfg := by
  have key : ∀ (os : List (Object F)) (s : Bytes),
      (∀ o ∈ os, ∀ e ∈ o.element_set, displayElement tgt e = e.display cfg) → displayAll tgt os s = compose_all cfg os s := by
    intro os
    induction os with
    | nil => intros; rfl
    | cons o os ih =>
      intro s h
      have ho : displayObject tgt o = compose cfg o := by
        unfold displayObject compose
        rw [compose_set_congr (h o (by simp))]
      simp only [displayAll, compose_all, ho]
      congr 1
      funext t
      exact ih _ fun o' ho' => h o' (by simp [ho'])
  unfold displaySet ObjectSet.display
  rw [key _ _ h]

theorem displayElement_small {cfg cfg' : Cfg} {w : Nat} (hw : w ≤ 64) {e : Element}
    (he : ∀ x ∈ indices e, ∀ n ∈ parts x, n + 1 < 2 ^ w) : displayElement ⟨cfg, w⟩ e = e.display cfg' := by
  have hp : 2 ^ w ≤ 2 ^ 64 := Nat.pow_le_pow_right (by decide) hw
  have k : ∀ x ∈ indices e, displayIndex ⟨cfg, w⟩ x = x.display cfg' := by
    intro x hx
    have i : ∀ n ∈ parts x, Width.incr ⟨cfg, w⟩ n = Obj.incr cfg' n := by
      intro n hn
      have := he x hx n hn
      unfold Width.incr Obj.incr usizeMaxAt usizeMax
      rw [if_pos (by show n < 2 ^ w - 1; omega), if_pos (by omega)]
    cases x <;> simp only [parts, List.mem_cons, List.not_mem_nil, or_false, forall_eq_or_imp, forall_eq] at i <;>
      simp only [displayIndex, VTNIndex.display, i]
  cases e <;> simp only [indices, List.mem_cons, List.not_mem_nil, or_false, forall_eq_or_imp, forall_eq] at k <;>
    simp only [displayElement, Element.display, k]

/-- **C104** With pointers of 64 bits the display is that of the other theorems. -/
theorem C104_wide (cfg : Cfg) (r : ObjectSet F) : displaySet ⟨cfg, 64⟩ r = r.display cfg := by
  have i : ∀ n, Width.incr ⟨cfg, 64⟩ n = Obj.incr cfg n := fun n => rfl
  refine displaySet_congr fun o _ e _ => ?_
  have k : ∀ x, displayIndex ⟨cfg, 64⟩ x = x.display cfg := by
    intro x
    cases x <;> simp only [displayIndex, VTNIndex.display, i]
  cases e <;> simp only [displayElement, Element.display, k]

variable [FloatSem F] {cfg : Cfg} {input : Bytes} {w : Nat}

/-- **C104** What `obj::parse` returns is displayed in the same way on every target on which the text fits in
memory, whatever the build profile, without a panic. -/
theorem C104_display (hw : w ≤ 64) (hlen : input.length + 1 < 2 ^ (w - 1)) {r : ObjectSet F}
    (h : Obj.parse cfg input = .ok r) (cfg1 cfg2 : Cfg) :
    displaySet ⟨cfg1, w⟩ r = r.display cfg2 ∧ (r.display cfg2).isSome = true := by
  have h63 : 2 ^ (w - 1) ≤ 2 ^ 63 := Nat.pow_le_pow_right (by decide) (by omega)
  have h64 : 2 ^ (w - 1) ≤ 2 ^ w := Nat.pow_le_pow_right (by decide) (by omega)
  refine ⟨displaySet_congr fun o ho e he => displayElement_small hw fun x hx n hn => ?_,
    (C48_display_total (by omega) h cfg2).1⟩
  have hx' := (C36_some_iff o x).mp ((good_elements (by omega) h ho he).exist x hx)
  obtain ⟨k1, k2, k3⟩ := lists_le (by omega) h ho
  cases x <;> simp only [parts, List.mem_cons, List.not_mem_nil, or_false, Exist] at hn hx' <;> omega

/-- **C104** So what the parser of a narrow target returns is displayed there as a 64-bit target displays what its
parser returns. -/
theorem C104_results (hw : w ≤ 64) (hlen : input.length + 1 < 2 ^ (w - 1)) (hu : UnsignedFit w input)
    (hn : cfg.overflow_checks = true → NotTooNegative w input) {r : ObjectSet F}
    (h : Width.parse ⟨cfg, w⟩ input = .ok r) :
    ∃ r' : ObjectSet F, Obj.parse cfg input = .ok r' ∧ displaySet ⟨cfg, w⟩ r = r'.display cfg ∧ (r'.display cfg).isSome = true :=
  have h' := ((C94_accept (F := F) hw hlen hu hn).1 r).mp h
  ⟨r, h', C104_display hw hlen h' cfg cfg⟩

end

/-- On a 16-bit target the largest index is 65534. -/
example : displayIndex ⟨debug, 16⟩ (.VT 65534 0) = some b!"65535/1" ∧ displayIndex ⟨debug, 16⟩ (.V 65535) = none ∧
    displayIndex ⟨release, 16⟩ (.V 65535) = some b!"0" ∧ displayIndex ⟨debug, 32⟩ (.V 65535) = some b!"65536" := by
  decide +kernel

/-- A text that meets the hypotheses of the last theorems for 16 bits. -/
example : ∃ r : ObjectSet Bytes, Width.parse ⟨debug, 16⟩ b!"v 0 0 0\nv 1 0 0\nl 1 2" = .ok r ∧
    UnsignedFit 16 b!"v 0 0 0\nv 1 0 0\nl 1 2" ∧ NotTooNegative 16 b!"v 0 0 0\nv 1 0 0\nl 1 2" :=
  ⟨⟨[], [⟨[], [⟨b!"0", b!"0", b!"0", b!"1"⟩, ⟨b!"1", b!"0", b!"0", b!"1"⟩], [], [], [⟨b!"default"⟩], [⟨0⟩],
    [.Line (.V 0) (.V 1)], [⟨0, [0], 0⟩], [⟨none, [0]⟩]⟩]⟩, by decide +kernel, by unfold UnsignedFit; decide +kernel,
    by unfold NotTooNegative; decide +kernel⟩

end Verif.Props
