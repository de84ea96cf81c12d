import Mathlib.Algebra.Order.Ring.Defs
import Mathlib.Tactic.Linarith
import Mathlib.Tactic.Positivity
import Verif.Props.Mesh
import Verif.Props.Scene

/-!
# Property C100: triangles of convex polygons

A convex polygon is cut into triangles that have its orientation, cover it and do not overlap.
-/

namespace Verif.Spec.Mesh

open Verif Verif.Obj Verif.Spec.Obj

variable {F R : Type} [CommRing R]

/-- Twice the signed area of the triangle `p q x`: positive if `x` is to the left of the line from `p` to `q`. -/
def left (p q x : R × R) : R := det (q - p) (x - p)

variable [LinearOrder R]

/-- A convex polygon, passed counterclockwise: any three corners, in their order, turn left. -/
def Convex (c : List (R × R)) : Prop :=
  ∀ (i j k : Nat) (_ : i < j) (_ : j < k) (_ : k < c.length), 0 < left c[i] c[j] c[k]

/-- The point `x` is to the left of, or on, each side of the polygon. -/
def Inside (c : List (R × R)) (x : R × R) : Prop := ∀ e ∈ cycle c, 0 ≤ left e.1 e.2 x

/-- The corners of a polygon, given the list of all vertices; `X` is any map of vertices to the plane. -/
def corners (X : Vertex F → R × R) (vs : List (Vertex F)) (refs : List Ref) : List (R × R) :=
  refs.map fun ref => vs[ref.v - 1]?.elim 0 X

/-- The point `x` is in a triangle or on its sides. -/
def Covers (X : Vertex F → R × R) (x : R × R) : ElementData F → Prop
  | .face a b c => Inside [X (vertexOf a), X (vertexOf b), X (vertexOf c)] x
  | _ => False

/-- The point `x` is in a triangle and not on its sides. -/
def Within (X : Vertex F → R × R) (x : R × R) : ElementData F → Prop
  | .face a b c => ∀ e ∈ cycle [X (vertexOf a), X (vertexOf b), X (vertexOf c)], 0 < left e.1 e.2 x
  | _ => False

instance (c : List (R × R)) (x : R × R) : Decidable (Inside c x) :=
  inferInstanceAs (Decidable (∀ e ∈ cycle c, 0 ≤ left e.1 e.2 x))

instance (X : Vertex F → R × R) (x : R × R) : DecidablePred (Covers X x)
  | .face a b c => inferInstanceAs (Decidable (Inside [X (vertexOf a), X (vertexOf b), X (vertexOf c)] x))
  | .line _ _ => inferInstanceAs (Decidable False)
  | .point _ => inferInstanceAs (Decidable False)

instance (X : Vertex F → R × R) (x : R × R) : DecidablePred (Within X x)
  | .face a b c => inferInstanceAs
      (Decidable (∀ e ∈ cycle [X (vertexOf a), X (vertexOf b), X (vertexOf c)], 0 < left e.1 e.2 x))
  | .line _ _ => inferInstanceAs (Decidable False)
  | .point _ => inferInstanceAs (Decidable False)

end Verif.Spec.Mesh

namespace Verif.Props

open Verif Verif.Spec Verif.Spec.Obj Verif.Obj Verif.Spec.Mesh

/-! ## Geometry -/

section
variable {R : Type} [CommRing R]

/-- A point is a combination of the corners of a triangle. -/
theorem left_combination (a b c p q x : R × R) :
    left a b c * left p q x = left b c x * left p q a + left c a x * left p q b + left a b x * left p q c := by
  simp only [left, det, Prod.fst_sub, Prod.snd_sub]
  ring

theorem left_rotate (a b c : R × R) : left b c a = left a b c := by
  simp only [left, det, Prod.fst_sub, Prod.snd_sub]; ring

theorem left_swap (a b c : R × R) : left b a c = -left a b c := by
  simp only [left, det, Prod.fst_sub, Prod.snd_sub]; ring

theorem left_same (a b : R × R) : left a b a = 0 ∧ left a b b = 0 := by
  simp only [left, det, Prod.fst_sub, Prod.snd_sub]; constructor <;> ring

variable [LinearOrder R]

/-- `Inside` in terms of positions. -/
theorem inside_iff (a : R × R) (l : List (R × R)) (x : R × R) : Inside (a :: l) x ↔
    (∀ (i : Nat) p q, (a :: l)[i]? = some p → (a :: l)[i + 1]? = some q → 0 ≤ left p q x) ∧
      0 ≤ left ((a :: l).getLast (by simp)) a x := by
  have key : ∀ (z : R × R) (l : List (R × R)) (a : R × R), (∀ e ∈ walk a (l ++ [z]), 0 ≤ left e.1 e.2 x) ↔
      (∀ (i : Nat) p q, (a :: l)[i]? = some p → (a :: l)[i + 1]? = some q → 0 ≤ left p q x) ∧
        0 ≤ left ((a :: l).getLast (by simp)) z x := by
    intro z l
    induction l with
    | nil => intro a; simp [walk]
    | cons b l ih =>
      intro a
      simp only [List.cons_append, walk, List.forall_mem_cons, ih b, List.getLast_cons_cons]
      constructor
      · rintro ⟨h1, h2, h3⟩
        refine ⟨fun i p q hp hq => ?_, h3⟩
        cases i with
        | zero => simp at hp hq; subst hp hq; exact h1
        | succ i => exact h2 i p q (by simpa using hp) (by simpa using hq)
      · rintro ⟨h1, h2⟩
        exact ⟨h1 0 a b rfl rfl, fun i p q hp hq => h1 (i + 1) p q (by simpa using hp) (by simpa using hq), h2⟩
  exact key a l a

variable [IsStrictOrderedRing R]

/-- The `k`-th triangle of the fan of a polygon covers a point. -/
def FanCovers (c : List (R × R)) (k : Nat) (x : R × R) : Prop :=
  ∃ p q r, c[0]? = some p ∧ c[k + 1]? = some q ∧ c[k + 2]? = some r ∧ Inside [p, q, r] x

omit [IsStrictOrderedRing R] in
theorem inside_triangle (p q r x : R × R) : Inside [p, q, r] x ↔ 0 ≤ left p q x ∧ 0 ≤ left q r x ∧ 0 ≤ left r p x := by
  simp [Inside, cycle, walk]

/-- Every point of a polygon is in one of the triangles. -/
theorem fan_covers {c : List (R × R)} (hc : 3 ≤ c.length) {x : R × R} (h : Inside c x) :
    ∃ k, k + 2 < c.length ∧ FanCovers c k x := by
  obtain ⟨a, l, rfl⟩ : ∃ a l, c = a :: l := by cases c with
    | nil => simp at hc
    | cons a l => exact ⟨a, l, rfl⟩
  obtain ⟨hs, hl⟩ := (inside_iff a l x).mp h
  -- the last corner that has `x` to the left of the diagonal to it
  have step : ∀ m, m + 2 < (a :: l).length → (∃ k, k < m ∧ k + 2 < (a :: l).length ∧ FanCovers (a :: l) k x) ∨
      ∀ q, (a :: l)[m + 1]? = some q → 0 ≤ left a q x := by
    intro m
    induction m with
    | zero =>
      intro hm
      exact .inr fun q hq => hs 0 a q rfl hq
    | succ m ih =>
      intro hm
      rcases ih (by omega) with ⟨k, hk, h⟩ | h
      · exact .inl ⟨k, by omega, h⟩
      · by_cases hq : ∀ q, (a :: l)[m + 2]? = some q → 0 ≤ left a q x
        · exact .inr hq
        · refine .inl ⟨m, by omega, by omega, ?_⟩
          push Not at hq
          obtain ⟨r, hr, hneg⟩ := hq
          have hlt : m + 1 < (a :: l).length := by omega
          refine ⟨a, (a :: l)[m + 1], r, rfl, List.getElem?_eq_getElem hlt, hr, ?_⟩
          rw [inside_triangle]
          refine ⟨h _ (List.getElem?_eq_getElem hlt), hs (m + 1) _ _ (List.getElem?_eq_getElem hlt) hr, ?_⟩
          rw [left_swap]
          linarith
  obtain ⟨n, hn⟩ : ∃ n, (a :: l).length = n + 3 := ⟨(a :: l).length - 3, by omega⟩
  rcases step n (by omega) with ⟨k, -, h⟩ | h
  · exact ⟨k, h⟩
  · have e1 : (a :: l)[n + 1]? = some (a :: l)[n + 1] := List.getElem?_eq_getElem (by omega)
    have e2 : (a :: l)[n + 2]? = some ((a :: l).getLast (by simp)) := by
      rw [List.getLast_eq_getElem, List.getElem?_eq_getElem (by omega)]
      congr 2
      omega
    exact ⟨n, by omega, a, _, _, rfl, e1, e2, (inside_triangle _ _ _ _).mpr ⟨h _ e1, hs _ _ _ e1 e2, hl⟩⟩

omit [IsStrictOrderedRing R] in
theorem convex_get {c : List (R × R)} (h : Convex c) {i j k : Nat} (hi : i < j) (hj : j < k) {p q r : R × R}
    (hp : c[i]? = some p) (hq : c[j]? = some q) (hr : c[k]? = some r) : 0 < left p q r := by
  obtain ⟨h1, rfl⟩ := List.getElem?_eq_some_iff.mp hp
  obtain ⟨h2, rfl⟩ := List.getElem?_eq_some_iff.mp hq
  obtain ⟨h3, rfl⟩ := List.getElem?_eq_some_iff.mp hr
  exact h i j k hi hj h3

omit [IsStrictOrderedRing R] in
/-- All corners are to the left of, or on, every side. -/
theorem side_corner {c : List (R × R)} (h : Convex c) {i m : Nat} {p q r : R × R}
    (hp : c[i]? = some p) (hq : c[i + 1]? = some q) (hr : c[m]? = some r) : 0 ≤ left p q r := by
  rcases lt_trichotomy m i with hm | rfl | hm
  · rw [left_rotate]
    exact (convex_get h hm (by omega) hr hp hq).le
  · rw [hp] at hr
    cases hr
    rw [(left_same p q).1]
  · rcases Nat.lt_or_ge (i + 1) m with hm' | hm'
    · exact (convex_get h (by omega) hm' hp hq hr).le
    · obtain rfl : m = i + 1 := by omega
      rw [hq] at hr
      cases hr
      rw [(left_same p q).2]

omit [IsStrictOrderedRing R] in
theorem last_side {c : List (R × R)} (h : Convex c) {n m : Nat} {p q r : R × R} (hn : m ≤ n)
    (hp : c[n]? = some p) (hq : c[0]? = some q) (hr : c[m]? = some r) : 0 ≤ left p q r := by
  rcases Nat.eq_zero_or_pos m with rfl | hm
  · rw [hq] at hr
    cases hr
    rw [(left_same p q).2]
  · rcases Nat.lt_or_ge m n with hm' | hm'
    · have := (convex_get h hm hm' hq hr hp).le
      rwa [← left_rotate, ← left_rotate] at this
    · obtain rfl : m = n := by omega
      rw [hp] at hr
      cases hr
      rw [(left_same p q).1]

/-- A point in a triangle is on the side of a line on which its corners are. -/
theorem triangle_side {a b c p q x : R × R} (h : 0 < left a b c) (hx : Inside [a, b, c] x) (ha : 0 ≤ left p q a)
    (hb : 0 ≤ left p q b) (hc : 0 ≤ left p q c) : 0 ≤ left p q x := by
  obtain ⟨h1, h2, h3⟩ := (inside_triangle a b c x).mp hx
  have e := left_combination a b c p q x
  have : 0 ≤ left a b c * left p q x := by rw [e]; positivity
  exact nonneg_of_mul_nonneg_right this h

/-- The triangles of a convex polygon are in it. -/
theorem covered_inside {c : List (R × R)} (hc : Convex c) {k : Nat} {x : R × R} (h : FanCovers c k x) : Inside c x := by
  obtain ⟨p, q, r, hp, hq, hr, hx⟩ := h
  have ht := convex_get hc (by omega) (by omega) hp hq hr
  obtain ⟨a, l, rfl⟩ : ∃ a l, c = a :: l := by cases c with
    | nil => simp at hp
    | cons a l => exact ⟨a, l, rfl⟩
  refine (inside_iff a l x).mpr ⟨fun i s t hs ht' => ?_, ?_⟩
  · exact triangle_side ht hx (side_corner hc hs ht' hp) (side_corner hc hs ht' hq) (side_corner hc hs ht' hr)
  · have e : (a :: l)[(a :: l).length - 1]? = some ((a :: l).getLast (by simp)) := by
      rw [List.getLast_eq_getElem, List.getElem?_eq_getElem (by simp)]
    have hlt : k + 2 < (a :: l).length := (List.getElem?_eq_some_iff.mp hr).1
    exact triangle_side ht hx (last_side hc (by omega) e rfl hp) (last_side hc (by omega) e rfl hq)
      (last_side hc (by omega) e rfl hr)

/-- Two triangles of a convex polygon have no inner point in common. -/
theorem fan_disjoint {c : List (R × R)} (hc : Convex c) {i k : Nat} (hik : i < k) {p r s t x : R × R}
    (hp : c[0]? = some p) (hr : c[i + 2]? = some r) (hs : c[k + 1]? = some s)
    (ht : c[k + 2]? = some t) (h1 : 0 < left r p x) (hx : Inside [p, s, t] x) : False := by
  have hpst := convex_get hc (by omega) (by omega) hp hs ht
  have h : 0 ≤ left p r x := by
    refine triangle_side hpst hx ?_ ?_ ?_
    · rw [(left_same p r).1]
    · rcases Nat.lt_or_ge (i + 2) (k + 1) with h | h
      · exact (convex_get hc (by omega) h hp hr hs).le
      · obtain rfl : k = i + 1 := by omega
        rw [hr] at hs
        cases hs
        rw [(left_same p r).2]
    · exact (convex_get hc (by omega) (by omega) hp hr ht).le
  rw [left_swap] at h1
  linarith

end

/-! ## The triangles of a statement -/

theorem items_polygon {lo hi : Counts} {pre post : List Item} {refs : List Ref}
    (h : ItemsValid lo hi (pre ++ .f refs :: post)) : 3 ≤ refs.length := by
  induction pre generalizing hi with
  | nil => exact h.1.1
  | cons it pre ih => exact ih h.2

variable {F : Type} [FloatSem F] {cfg : Cfg} {input : Bytes} {r : ObjectSet F}

omit [FloatSem F] in
theorem drawn_lengths (data : Ref → Option (VTNTriple F)) (items : List Item) :
    (items.flatMap (Item.drawn data)).length = sizes items := by
  simp [List.length_flatMap, sizes, drawn_length]

section
variable (hlen : input.length < 2 ^ 63) {file : FileAst} (hf : FileOk cfg (tokens input) file)
  (h : Obj.parse cfg input = .ok r) {j : Nat} {ast : ObjAst} (ha : file.objects[j]? = some ast)
  {pre post : List Item} {refs : List Ref} (hi : ast.items = pre ++ .f refs :: post)
  {R : Type} [CommRing R] (X : Vertex F → R × R)
include hlen hf h ha hi

/-- The triangles of a polygon are the triangles of its fan. -/
theorem fan_elements : ∃ o, r.objects[j]? = some o ∧ ∀ k, k + 2 < refs.length → ∃ e a b c,
    o.element_set[sizes pre + k]? = some e ∧ Obj.lookup o e = some (.face a b c) ∧
    (corners X ((file.objects.flatMap ObjAst.items).filterMap Item.vertex?) refs)[0]? = some (X (vertexOf a)) ∧
    (corners X ((file.objects.flatMap ObjAst.items).filterMap Item.vertex?) refs)[k + 1]? = some (X (vertexOf b)) ∧
    (corners X ((file.objects.flatMap ObjAst.items).filterMap Item.vertex?) refs)[k + 2]? = some (X (vertexOf c)) := by
  obtain ⟨o, ho, hd, -⟩ := C19_indices_denote hlen hf h ha
  refine ⟨o, ho, fun k hk => ?_⟩
  have hw : ∀ ref ∈ refs, _ := fun ref href => written_data hlen hf h ha
    (it := .f refs) (by rw [hi]; simp) (ref := ref) (by simpa [Item.refs] using href) (X := X)
  obtain ⟨z, l, rfl⟩ : ∃ z l, refs = z :: l := by cases refs with
    | nil => simp at hk
    | cons z l => exact ⟨z, l, rfl⟩
  have hk1 : k < l.length := by simp at hk; omega
  have hk2 : k + 1 < l.length := by simp at hk; omega
  obtain ⟨a, ha1, ha2⟩ := hw z (by simp)
  obtain ⟨b, hb1, hb2⟩ := hw l[k] (by simp)
  obtain ⟨c, hc1, hc2⟩ := hw l[k + 1] (by simp)
  have e := congrArg (·[sizes pre + k]?) hd
  simp only [hi, List.flatMap_append, List.flatMap_cons] at e
  rw [List.getElem?_append_right (by rw [drawn_lengths]; omega), drawn_lengths, Nat.add_sub_cancel_left,
    List.getElem?_append_left (by rw [drawn_length]; simp [Item.size]; omega), List.getElem?_map] at e
  simp only [Item.drawn] at e
  simp only [List.getElem?_zipWith, List.getElem?_tail, List.getElem?_eq_getElem hk1, List.getElem?_eq_getElem hk2,
    ha1, hb1, hc1] at e
  obtain ⟨x, hx, hx'⟩ := Option.map_eq_some_iff.mp e
  refine ⟨x, a, b, c, hx, hx', ?_, ?_, ?_⟩
  · simp [corners, ha2]
  · simp [corners, hb2, List.getElem?_eq_getElem hk1]
  · simp [corners, hc2, List.getElem?_eq_getElem hk2]

variable [LinearOrder R] [IsStrictOrderedRing R]
  (hc : Convex (corners X ((file.objects.flatMap ObjAst.items).filterMap Item.vertex?) refs))
include hc

omit [IsStrictOrderedRing R] in
/-- Every triangle of a convex polygon that is passed counterclockwise is passed counterclockwise. -/
theorem C100_orientation : ∃ o, r.objects[j]? = some o ∧ ∀ k, k + 2 < refs.length →
    ∃ e d, o.element_set[sizes pre + k]? = some e ∧ Obj.lookup o e = some d ∧ 0 < area X d := by
  obtain ⟨o, ho, hk⟩ := fan_elements hlen hf h ha hi X
  refine ⟨o, ho, fun k hk' => ?_⟩
  obtain ⟨e, a, b, c, h1, h2, h3, h4, h5⟩ := hk k hk'
  exact ⟨e, _, h1, h2, convex_get hc (by omega) (by omega) h3 h4 h5⟩

/-- The triangles of a convex polygon cover it, and nothing else: a point is to the left of all sides,
or on them, exactly if it is in one of the triangles. -/
theorem C100_cover : ∃ o, r.objects[j]? = some o ∧ ∀ x : R × R,
    Inside (corners X ((file.objects.flatMap ObjAst.items).filterMap Item.vertex?) refs) x ↔
      ∃ k e d, k + 2 < refs.length ∧ o.element_set[sizes pre + k]? = some e ∧ Obj.lookup o e = some d ∧ Covers X x d := by
  have h3 : 3 ≤ refs.length := by
    have := (parsed_object hlen hf h ha).2
    rw [hi] at this
    exact items_polygon this
  obtain ⟨o, ho, hk⟩ := fan_elements hlen hf h ha hi X
  refine ⟨o, ho, fun x => ⟨fun hx => ?_, ?_⟩⟩
  · obtain ⟨k, hk', p, q, s, hp, hq, hs, hc⟩ := fan_covers (by simpa [corners] using h3) hx
    have hk' : k + 2 < refs.length := by simpa [corners] using hk'
    obtain ⟨e, a, b, c, h1, h2, h3, h4, h5⟩ := hk k hk'
    rw [hp] at h3
    rw [hq] at h4
    rw [hs] at h5
    cases h3
    cases h4
    cases h5
    exact ⟨k, e, _, hk', h1, h2, hc⟩
  · rintro ⟨k, e, d, hk', he, hd, hx⟩
    obtain ⟨e', a, b, c, h1, h2, h3, h4, h5⟩ := hk k hk'
    rw [he] at h1
    cases h1
    rw [hd] at h2
    cases h2
    exact covered_inside hc ⟨_, _, _, h3, h4, h5, hx⟩

/-- Two triangles of a convex polygon have no inner point in common. -/
theorem C100_disjoint : ∃ o, r.objects[j]? = some o ∧ ∀ (x : R × R) (i k : Nat) e e' d d',
    i + 2 < refs.length → k + 2 < refs.length → i ≠ k →
    o.element_set[sizes pre + i]? = some e → Obj.lookup o e = some d →
    o.element_set[sizes pre + k]? = some e' → Obj.lookup o e' = some d' → Within X x d → ¬ Within X x d' := by
  obtain ⟨o, ho, hk⟩ := fan_elements hlen hf h ha hi X
  refine ⟨o, ho, ?_⟩
  have key : ∀ (x : R × R) (i k : Nat) e e' d d', i + 2 < refs.length → k + 2 < refs.length → i < k →
      o.element_set[sizes pre + i]? = some e → Obj.lookup o e = some d →
      o.element_set[sizes pre + k]? = some e' → Obj.lookup o e' = some d' → Within X x d → Within X x d' → False := by
    intro x i k e e' d d' hi' hk' hik he hd he' hd' hx hx'
    obtain ⟨_, a, b, c, h1, h2, h3, h4, h5⟩ := hk i hi'
    rw [he] at h1
    cases h1
    rw [hd] at h2
    cases h2
    obtain ⟨_, a', b', c', g1, g2, g3, g4, g5⟩ := hk k hk'
    rw [he'] at g1
    cases g1
    rw [hd'] at g2
    cases g2
    rw [h3] at g3
    injection g3 with g3
    simp only [Within, cycle, walk, List.cons_append, List.nil_append, List.forall_mem_cons] at hx hx'
    rw [← g3] at hx'
    exact fan_disjoint hc hik h3 h5 g4 g5 hx.2.2.1
      ((inside_triangle _ _ _ _).mpr ⟨hx'.1.le, hx'.2.1.le, hx'.2.2.1.le⟩)
  intro x i k e e' d d' hi' hk' hik he hd he' hd' hx hx'
  rcases Nat.lt_or_gt_of_ne hik with hlt | hlt
  · exact key x i k e e' d d' hi' hk' hlt he hd he' hd' hx hx'
  · exact key x k i e' e d' d hk' hi' hlt he' hd' he hd hx' hx

end

/-! ## A pentagon -/

/-- A pentagon after a line; its corners are passed counterclockwise, beginning with the third vertex. -/
def pentagon : FileAst := ⟨[], [⟨b!"pent", [.v b!"0" b!"0" b!"0" none, .v b!"4" b!"0" b!"0" none,
  .v b!"5" b!"3" b!"0" none, .v b!"2" b!"5" b!"0" none, .v b!"0" b!"3" b!"0" none,
  .l [⟨1, none, none⟩, ⟨2, none, none⟩],
  .f [⟨3, none, none⟩, ⟨4, none, none⟩, ⟨5, none, none⟩, ⟨1, none, none⟩, ⟨2, none, none⟩]]⟩]⟩

theorem pentagon_valid : ValidFile pentagon := by
  refine ⟨by decide, .inr (by decide), ?_, by decide, trivial⟩
  simp only [ValidItems, ValidItem, Uniform, ValidRef]; decide +kernel

theorem convex_of {c : List (Int × Int)}
    (h : ∀ k < c.length, ∀ j < k, ∀ i < j, 0 < left (c.getD i 0) (c.getD j 0) (c.getD k 0)) : Convex c := by
  intro i j k hij hjk hk
  have := h k hk j hjk i hij
  simpa only [List.getD_eq_getElem?_getD, List.getElem?_eq_getElem hk, List.getElem?_eq_getElem (hjk.trans hk),
    List.getElem?_eq_getElem (hij.trans (hjk.trans hk)), Option.getD_some] using this

/-- The hypotheses of the theorems of this file hold of it, and the point (2, 2) is in it. -/
example : ∃ (r : ObjectSet Bytes) (o : Object Bytes) (k : Nat) (e : Element) (d : ElementData Bytes),
    Obj.parse debug pentagon.text = .ok r ∧ r.objects[0]? = some o ∧ k < 3 ∧ o.element_set[1 + k]? = some e ∧
      Obj.lookup o e = some d ∧ Covers digits (2, 2) d := by
  have hl : pentagon.text.length < 2 ^ 63 := by decide +kernel
  have hp := C28_write_read (F := Bytes) (cfg := debug) pentagon_valid hl
  obtain ⟨o, ho, hx⟩ := C100_cover hl (file_text debug pentagon_valid hl) hp (j := 0) rfl
    (pre := [.v b!"0" b!"0" b!"0" none, .v b!"4" b!"0" b!"0" none,
      .v b!"5" b!"3" b!"0" none, .v b!"2" b!"5" b!"0" none, .v b!"0" b!"3" b!"0" none,
      .l [⟨1, none, none⟩, ⟨2, none, none⟩]]) rfl digits (convex_of (by decide +kernel))
  obtain ⟨k, e, d, h1, h2, h3, h4⟩ := (hx (2, 2)).mp (by decide +kernel)
  exact ⟨_, o, k, e, d, hp, ho, Nat.lt_of_succ_lt_succ (Nat.lt_of_succ_lt_succ h1), h2, h3, h4⟩

end Verif.Props
