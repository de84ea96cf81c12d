import Mathlib.Data.Finset.Card
import Mathlib.Data.Finset.Image
import Mathlib.Data.Sym.Sym2
import Mathlib.Logic.Relation
import Verif.Props.Convex

/-!
# Property C105: the shape of the triangulated surface

Cutting polygons into triangles keeps the vertices of the surface, its connected components and, if the
diagonals are new edges, its Euler characteristic.
-/

namespace Verif.Spec.Mesh

open Verif Verif.Obj

/-- The ends of edges. -/
def ends (edges : List (Nat × Nat)) : Finset Nat := (edges.map Prod.fst ++ edges.map Prod.snd).toFinset

/-- Edges without their direction, each once. -/
def undirected (edges : List (Nat × Nat)) : Finset (Sym2 Nat) := (edges.map fun e => s(e.1, e.2)).toFinset

/-- The number of vertices minus the number of edges plus the number of faces. -/
def euler (edges : List (Nat × Nat)) (faces : Nat) : Int := (ends edges).card - (undirected edges).card + faces

/-- There is a way along edges, in any direction. -/
def Joined (edges : List (Nat × Nat)) : Nat → Nat → Prop := Relation.EqvGen fun a b => (a, b) ∈ edges

/-- The number of triangles. -/
def triangleCount (elements : List Element) : Nat := elements.countP fun
  | .Face _ _ _ => true
  | _ => false

end Verif.Spec.Mesh

namespace Verif.Props

open Verif Verif.Spec Verif.Spec.Obj Verif.Obj Verif.Spec.Mesh List

/-! ## Relabelling -/

theorem ends_perm {E E' : List (Nat × Nat)} (h : E ~ E') : ends E = ends E' :=
  List.toFinset_eq_of_perm _ _ ((h.map _).append (h.map _))

theorem undirected_perm {E E' : List (Nat × Nat)} (h : E ~ E') : undirected E = undirected E' :=
  List.toFinset_eq_of_perm _ _ (h.map _)

theorem mem_ends {E : List (Nat × Nat)} {a : Nat} : a ∈ ends E ↔ ∃ e ∈ E, e.1 = a ∨ e.2 = a := by
  simp only [ends, List.mem_toFinset, List.mem_append, List.mem_map]
  constructor
  · rintro (⟨e, h, rfl⟩ | ⟨e, h, rfl⟩)
    · exact ⟨e, h, .inl rfl⟩
    · exact ⟨e, h, .inr rfl⟩
  · rintro ⟨e, h, rfl | rfl⟩
    · exact .inl ⟨e, h, rfl⟩
    · exact .inr ⟨e, h, rfl⟩

theorem ends_relabel (f : Nat → Nat) (E : List (Nat × Nat)) : ends (relabel f E) = (ends E).image f := by
  ext a
  simp only [mem_ends, relabel, Finset.mem_image, List.mem_map]
  constructor
  · rintro ⟨_, ⟨e, h, rfl⟩, h' | h'⟩
    · exact ⟨e.1, ⟨e, h, .inl rfl⟩, h'⟩
    · exact ⟨e.2, ⟨e, h, .inr rfl⟩, h'⟩
  · rintro ⟨_, ⟨e, h, rfl | rfl⟩, rfl⟩
    · exact ⟨_, ⟨e, h, rfl⟩, .inl rfl⟩
    · exact ⟨_, ⟨e, h, rfl⟩, .inr rfl⟩

theorem undirected_relabel (f : Nat → Nat) (E : List (Nat × Nat)) :
    undirected (relabel f E) = (undirected E).image (Sym2.map f) := by
  ext a
  simp only [undirected, relabel, Finset.mem_image, List.mem_map, List.mem_toFinset]
  constructor
  · rintro ⟨_, ⟨e, h, rfl⟩, rfl⟩
    exact ⟨_, ⟨e, h, rfl⟩, rfl⟩
  · rintro ⟨_, ⟨e, h, rfl⟩, rfl⟩
    exact ⟨_, ⟨e, h, rfl⟩, rfl⟩

theorem euler_relabel {f : Nat → Nat} (hf : Function.Injective f) (E : List (Nat × Nat)) (n : Nat) :
    euler (relabel f E) n = euler E n := by
  rw [euler, euler, ends_relabel, undirected_relabel, Finset.card_image_of_injective _ hf,
    Finset.card_image_of_injective _ (Sym2.map.injective hf)]

theorem joined_relabel {f : Nat → Nat} (hf : Function.Injective f) {E : List (Nat × Nat)} {a b : Nat} :
    Joined (relabel f E) (f a) (f b) ↔ Joined E a b := by
  constructor
  · have key : ∀ x y, Joined (relabel f E) x y → x = y ∨ ∃ a b, x = f a ∧ y = f b ∧ Joined E a b := by
      intro x y h
      induction h with
      | rel x y h =>
        obtain ⟨e, he, h⟩ := List.mem_map.mp h
        cases h
        exact .inr ⟨_, _, rfl, rfl, .rel _ _ he⟩
      | refl => exact .inl rfl
      | symm _ _ _ ih =>
        rcases ih with ih | ⟨a, b, h1, h2, h3⟩
        · exact .inl ih.symm
        · exact .inr ⟨b, a, h2, h1, h3.symm⟩
      | trans _ _ _ _ _ ih1 ih2 =>
        rcases ih1 with rfl | ⟨a, b, rfl, rfl, h3⟩
        · exact ih2
        · rcases ih2 with h | ⟨c, d, h1, rfl, h4⟩
          · exact .inr ⟨a, b, rfl, h.symm, h3⟩
          · cases hf h1
            exact .inr ⟨a, d, rfl, rfl, h3.trans _ _ _ h4⟩
    intro h
    rcases key _ _ h with h | ⟨c, d, h1, h2, h3⟩
    · cases hf h
      exact .refl _
    · cases hf h1; cases hf h2
      exact h3
  · intro h
    induction h with
    | rel x y h => exact .rel _ _ (List.mem_map.mpr ⟨_, h, rfl⟩)
    | refl => exact .refl _
    | symm _ _ _ ih => exact ih.symm
    | trans _ _ _ _ _ ih1 ih2 => exact ih1.trans _ _ _ ih2

/-! ## Sides and diagonals -/

theorem length_walk {X : Type} (a : X) (l : List X) : (walk a l).length = l.length := by
  induction l generalizing a with
  | nil => rfl
  | cons b l ih => simp [walk, ih]

theorem length_cycle {X : Type} (l : List X) : (cycle l).length = l.length := by
  cases l with
  | nil => rfl
  | cons a l => simp [cycle, length_walk]

theorem length_diagonals {X : Type} (l : List X) : (diagonals l).length = l.length - 3 := by
  match l with
  | [] => rfl
  | [_] => rfl
  | _ :: _ :: l => simp [diagonals]

theorem mem_diagonals {X : Type} {e : X × X} {l : List X} (h : e ∈ diagonals l) : e.1 ∈ l ∧ e.2 ∈ l := by
  match l with
  | [] => cases h
  | [_] => cases h
  | a :: b :: l =>
    obtain ⟨c, hc, rfl⟩ := List.mem_map.mp h
    have := List.dropLast_subset _ hc
    simp [this]

theorem joined_walk (a : Nat) (l : List Nat) : ∀ x ∈ l, Joined (walk a l) a x := by
  induction l generalizing a with
  | nil => intro x h; cases h
  | cons b l ih =>
    intro x hx
    have h1 : Joined (walk a (b :: l)) a b := .rel _ _ (by simp [walk])
    rcases List.mem_cons.mp hx with rfl | hx
    · exact h1
    · exact h1.trans _ _ _ ((ih b x hx).mono fun _ _ h => List.mem_cons_of_mem _ h)

theorem joined_cycle {l : List Nat} {x y : Nat} (hx : x ∈ l) (hy : y ∈ l) : Joined (cycle l) x y := by
  cases l with
  | nil => cases hx
  | cons a l =>
    have k : ∀ z ∈ a :: l, Joined (cycle (a :: l)) a z := fun z hz => joined_walk a (l ++ [a]) z (by
      rcases List.mem_cons.mp hz with rfl | hz <;> simp [*])
    exact (k x hx).symm.trans _ _ _ (k y hy)

theorem ends_cycle {l : List Nat} {x : Nat} : x ∈ ends (cycle l) ↔ x ∈ l := by
  constructor
  · intro h
    obtain ⟨e, he, rfl | rfl⟩ := mem_ends.mp h
    · exact (mem_cycle he).1
    · exact (mem_cycle he).2
  · intro h
    cases l with
    | nil => cases h
    | cons a l =>
      have k : ∀ (l : List Nat) (a x : Nat), x ∈ l → ∃ e ∈ walk a l, e.2 = x := by
        intro l
        induction l with
        | nil => intro a x h; cases h
        | cons b l ih =>
          intro a x h
          rcases List.mem_cons.mp h with rfl | h
          · exact ⟨(a, x), by simp [walk], rfl⟩
          · obtain ⟨e, he, h⟩ := ih b x h
            exact ⟨e, List.mem_cons_of_mem _ he, h⟩
      obtain ⟨e, he, h⟩ := k (l ++ [a]) a x (by
        rcases List.mem_cons.mp h with rfl | h <;> simp [*])
      exact mem_ends.mpr ⟨e, he, .inr h⟩

/-- The sides of polygons. -/
abbrev sides (ps : List (List Nat)) : List (Nat × Nat) := ps.flatMap cycle

/-- The sides and the diagonals in both directions. -/
abbrev cut (ps : List (List Nat)) : List (Nat × Nat) :=
  ps.flatMap fun c => cycle c ++ diagonals c ++ (diagonals c).map Prod.swap

theorem mem_cut {ps : List (List Nat)} {e : Nat × Nat} (h : e ∈ cut ps) :
    e ∈ sides ps ∨ ∃ c ∈ ps, e ∈ diagonals c ∨ e.swap ∈ diagonals c := by
  obtain ⟨c, hc, h⟩ := List.mem_flatMap.mp h
  rcases List.mem_append.mp h with h | h
  · rcases List.mem_append.mp h with h | h
    · exact .inl (List.mem_flatMap.mpr ⟨c, hc, h⟩)
    · exact .inr ⟨c, hc, .inl h⟩
  · obtain ⟨d, hd, rfl⟩ := List.mem_map.mp h
    exact .inr ⟨c, hc, .inr (by simpa using hd)⟩

theorem sides_cut {ps : List (List Nat)} {e : Nat × Nat} (h : e ∈ sides ps) : e ∈ cut ps := by
  obtain ⟨c, hc, h⟩ := List.mem_flatMap.mp h
  exact List.mem_flatMap.mpr ⟨c, hc, by simp [h]⟩

theorem cut_corners {ps : List (List Nat)} {e : Nat × Nat} (h : e ∈ cut ps) : ∃ c ∈ ps, e.1 ∈ c ∧ e.2 ∈ c := by
  rcases mem_cut h with h | ⟨c, hc, h | h⟩
  · obtain ⟨c, hc, h⟩ := List.mem_flatMap.mp h
    exact ⟨c, hc, mem_cycle h⟩
  · exact ⟨c, hc, mem_diagonals h⟩
  · exact ⟨c, hc, (mem_diagonals h).2, (mem_diagonals h).1⟩

theorem ends_sides {ps : List (List Nat)} {x : Nat} : x ∈ ends (sides ps) ↔ ∃ c ∈ ps, x ∈ c := by
  constructor
  · intro h
    obtain ⟨e, he, h⟩ := mem_ends.mp h
    obtain ⟨c, hc, he⟩ := List.mem_flatMap.mp he
    exact ⟨c, hc, ends_cycle.mp (mem_ends.mpr ⟨e, he, h⟩)⟩
  · rintro ⟨c, hc, h⟩
    obtain ⟨e, he, h⟩ := mem_ends.mp (ends_cycle.mpr h)
    exact mem_ends.mpr ⟨e, List.mem_flatMap.mpr ⟨c, hc, he⟩, h⟩

theorem ends_cut (ps : List (List Nat)) : ends (cut ps) = ends (sides ps) := by
  ext x
  constructor
  · intro h
    obtain ⟨e, he, h⟩ := mem_ends.mp h
    obtain ⟨c, hc, h1, h2⟩ := cut_corners he
    refine ends_sides.mpr ⟨c, hc, ?_⟩
    rcases h with rfl | rfl <;> assumption
  · intro h
    obtain ⟨e, he, h⟩ := mem_ends.mp h
    exact mem_ends.mpr ⟨e, sides_cut he, h⟩

theorem joined_cut {ps : List (List Nat)} {a b : Nat} : Joined (cut ps) a b ↔ Joined (sides ps) a b := by
  constructor
  · intro h
    induction h with
    | rel x y h =>
      obtain ⟨c, hc, h1, h2⟩ := cut_corners h
      exact (joined_cycle h1 h2).mono fun _ _ h => List.mem_flatMap.mpr ⟨c, hc, h⟩
    | refl => exact .refl _
    | symm _ _ _ ih => exact ih.symm
    | trans _ _ _ _ _ ih1 ih2 => exact ih1.trans _ _ _ ih2
  · exact fun h => h.mono fun _ _ h => sides_cut h

theorem undirected_cut (ps : List (List Nat)) :
    undirected (cut ps) = undirected (sides ps) ∪ undirected (ps.flatMap diagonals) := by
  ext x
  simp only [undirected, List.mem_toFinset, Finset.mem_union, List.mem_map]
  constructor
  · rintro ⟨e, he, rfl⟩
    rcases mem_cut he with h | ⟨c, hc, h | h⟩
    · exact .inl ⟨e, h, rfl⟩
    · exact .inr ⟨e, List.mem_flatMap.mpr ⟨c, hc, h⟩, rfl⟩
    · exact .inr ⟨e.swap, List.mem_flatMap.mpr ⟨c, hc, h⟩, Sym2.eq_swap⟩
  · rintro (⟨e, he, rfl⟩ | ⟨e, he, rfl⟩)
    · exact ⟨e, sides_cut he, rfl⟩
    · obtain ⟨c, hc, h⟩ := List.mem_flatMap.mp he
      exact ⟨e, List.mem_flatMap.mpr ⟨c, hc, by simp [h]⟩, rfl⟩

theorem length_cut {ps : List (List Nat)} (h : ∀ c ∈ ps, 3 ≤ c.length) :
    (cut ps).length = (sides ps).length + 2 * (ps.flatMap diagonals).length ∧
      (sides ps).length = 3 * ps.length + (ps.flatMap diagonals).length := by
  induction ps with
  | nil => simp
  | cons c ps ih =>
    obtain ⟨h1, h2⟩ := ih fun c hc => h c (List.mem_cons_of_mem _ hc)
    have := h c (by simp)
    simp only [cut, sides, List.flatMap_cons, List.length_append, List.length_map, length_cycle, length_diagonals,
      List.length_cons] at h1 h2 ⊢
    omega

theorem triangles_length (es : List Element) : (es.flatMap triangleEdges).length = 3 * triangleCount es := by
  induction es with
  | nil => rfl
  | cons e es ih =>
    cases e <;> simp [triangleCount, triangleEdges] at ih ⊢ <;> omega

/-! ## C105 -/

variable {F : Type} [FloatSem F] {cfg : Cfg} {input : Bytes} {r : ObjectSet F}

section
variable (hlen : input.length < 2 ^ 63) {file : FileAst} (hf : FileOk cfg (tokens input) file)
  (h : Obj.parse cfg input = .ok r) {j : Nat} {ast : ObjAst} (ha : file.objects[j]? = some ast)

include hlen hf h ha

theorem triangles_cut : ∃ o, r.objects[j]? = some o ∧
    relabel (fun n => n + 1 + (countsBefore file.objects j).v) (relabel corner (o.element_set.flatMap triangleEdges)) ~
      cut ((polygons ast.items).map (List.map Ref.v)) := by
  obtain ⟨o, ho, hp⟩ := C95_edges hlen hf h ha
  refine ⟨o, ho, ?_⟩
  have hp := (hp.map (Prod.map Ref.v Ref.v) : _ ~ _)
  have e1 : (relabel (written (countsBefore file.objects j)) (o.element_set.flatMap triangleEdges)).map
      (Prod.map Ref.v Ref.v) = relabel (fun n => n + 1 + (countsBefore file.objects j).v)
        (relabel corner (o.element_set.flatMap triangleEdges)) := by
    rw [relabel_relabel]
    show relabel Ref.v _ = _
    rw [relabel_relabel]
    congr 1
    funext x
    exact corner_written _ x
  have e2 : ((polygons ast.items).flatMap fun c => cycle c ++ diagonals c ++ (diagonals c).map Prod.swap).map
      (Prod.map Ref.v Ref.v) = cut ((polygons ast.items).map (List.map Ref.v)) := by
    rw [cut, List.map_flatMap, List.flatMap_map]
    congr 1
    funext c
    have ec := cycle_map Ref.v c
    have ed := diagonals_map Ref.v c
    simp only [relabel] at ec ed
    rw [List.map_append, List.map_append, ec, ← ed, List.map_map, List.map_map]
    rfl
  rwa [e1, e2] at hp

theorem polygon_corners : ∀ c ∈ (polygons ast.items).map (List.map Ref.v), 3 ≤ c.length := by
  obtain ⟨-, hv⟩ := parsed_object hlen hf h ha
  have k : ∀ (items : List Item) {lo hi : Counts}, ItemsValid lo hi items → ∀ c ∈ polygons items, 3 ≤ c.length := by
    intro items
    induction items with
    | nil => intro _ _ _ c hc; cases hc
    | cons it items ih =>
      intro lo hi hv c hc
      cases it with
      | f refs =>
        rcases List.mem_cons.mp hc with rfl | hc
        · exact hv.1.1
        · exact ih hv.2 c hc
      | _ => exact ih hv.2 c hc
  intro c hc
  obtain ⟨c', hc', rfl⟩ := List.mem_map.mp hc
  simpa using k _ hv c' hc'

/-- **C105** The triangles of an object have the same vertices as the polygons of its `f` statements. -/
theorem C105_vertices : ∃ o, r.objects[j]? = some o ∧ ∀ a : Nat,
    a ∈ ends (relabel corner (o.element_set.flatMap triangleEdges)) ↔
      ∃ c ∈ polygons ast.items, ∃ ref ∈ c, ref.v = a + 1 + (countsBefore file.objects j).v := by
  obtain ⟨o, ho, hp⟩ := triangles_cut hlen hf h ha
  refine ⟨o, ho, fun a => ?_⟩
  have hinj : Function.Injective fun n => n + 1 + (countsBefore file.objects j).v := fun a b h => by simpa using h
  have e := ends_perm hp
  rw [ends_relabel, ends_cut] at e
  rw [← hinj.mem_finset_image, e, ends_sides]
  simp

/-- **C105** Two vertices are joined by edges of triangles exactly if they are joined by sides of polygons: the
connected parts are the same. -/
theorem C105_joined : ∃ o, r.objects[j]? = some o ∧ ∀ a b : Nat,
    Joined (relabel corner (o.element_set.flatMap triangleEdges)) a b ↔
      Joined ((polygons ast.items).flatMap fun c => cycle (c.map Ref.v))
        (a + 1 + (countsBefore file.objects j).v) (b + 1 + (countsBefore file.objects j).v) := by
  obtain ⟨o, ho, hp⟩ := triangles_cut hlen hf h ha
  refine ⟨o, ho, fun a b => ?_⟩
  have hinj : Function.Injective fun n => n + 1 + (countsBefore file.objects j).v := fun a b h => by simpa using h
  rw [← joined_relabel hinj]
  have e : Joined (relabel (fun n => n + 1 + (countsBefore file.objects j).v)
      (relabel corner (o.element_set.flatMap triangleEdges))) = Joined (cut ((polygons ast.items).map (List.map Ref.v))) := by
    unfold Joined
    congr 1
    funext a b
    exact propext hp.mem_iff
  rw [e, joined_cut, sides, List.flatMap_map]

/-- **C105** Twice the number of faces minus the number of their sides, each face counted on its own, is the same
for the triangles as for the polygons. -/
theorem C105_sides : ∃ o, r.objects[j]? = some o ∧
    2 * (triangleCount o.element_set : Int) - (o.element_set.flatMap triangleEdges).length =
      2 * ((polygons ast.items).length : Int) - ((polygons ast.items).flatMap cycle).length := by
  obtain ⟨o, ho, hp⟩ := triangles_cut hlen hf h ha
  refine ⟨o, ho, ?_⟩
  obtain ⟨h1, h2⟩ := length_cut (polygon_corners hlen hf h ha)
  have h3 := hp.length_eq
  have h4 := triangles_length o.element_set
  have h5 : (sides ((polygons ast.items).map (List.map Ref.v))).length = ((polygons ast.items).flatMap cycle).length := by
    simp only [sides, List.flatMap_map, List.length_flatMap, length_cycle, List.length_map]
  simp only [relabel, List.length_map] at h1 h2 h3
  omega

/-- **C105** If no diagonal is a side or the diagonal of another polygon, the triangles have the Euler
characteristic of the polygons. -/
theorem C105_euler
    (hd : (((polygons ast.items).flatMap fun c => diagonals (c.map Ref.v)).map fun e => s(e.1, e.2)).Nodup)
    (hs : Disjoint (undirected ((polygons ast.items).flatMap fun c => diagonals (c.map Ref.v)))
      (undirected ((polygons ast.items).flatMap fun c => cycle (c.map Ref.v)))) :
    ∃ o, r.objects[j]? = some o ∧
      euler (relabel corner (o.element_set.flatMap triangleEdges)) (triangleCount o.element_set) =
        euler ((polygons ast.items).flatMap fun c => cycle (c.map Ref.v)) (polygons ast.items).length := by
  obtain ⟨o, ho, hp⟩ := triangles_cut hlen hf h ha
  refine ⟨o, ho, ?_⟩
  obtain ⟨h1, h2⟩ := length_cut (polygon_corners hlen hf h ha)
  have h3 := hp.length_eq
  have h4 := triangles_length o.element_set
  have e : ∀ f : List Nat → List (Nat × Nat), ((polygons ast.items).map (List.map Ref.v)).flatMap f =
      (polygons ast.items).flatMap fun c => f (c.map Ref.v) := fun f => List.flatMap_map ..
  have hinj : Function.Injective fun n => n + 1 + (countsBefore file.objects j).v := fun a b h => by simpa using h
  rw [← euler_relabel hinj, euler, ends_perm hp, undirected_perm hp, ends_cut, undirected_cut,
    Finset.card_union_of_disjoint (by rw [sides, e, e]; exact hs.symm), euler]
  have h5 : (undirected (((polygons ast.items).map (List.map Ref.v)).flatMap diagonals)).card =
      (((polygons ast.items).map (List.map Ref.v)).flatMap diagonals).length := by
    rw [undirected, List.toFinset_card_of_nodup (by rw [e]; exact hd), List.length_map]
  rw [h5, sides, e]
  simp only [relabel, List.length_map] at h1 h2 h3
  push_cast
  omega

end

/-! ## A cube and a pillow -/

/-- The corners of a quadrilateral. -/
def quad (a b c d : Nat) : Item := .f [⟨a, none, none⟩, ⟨b, none, none⟩, ⟨c, none, none⟩, ⟨d, none, none⟩]

/-- A cube, after an object of one point. -/
def cube : FileAst := ⟨[], [⟨[], [.v b!"9" b!"9" b!"9" none, .p [1]]⟩, ⟨b!"cube",
  [.v b!"0" b!"0" b!"0" none, .v b!"1" b!"0" b!"0" none, .v b!"1" b!"1" b!"0" none, .v b!"0" b!"1" b!"0" none,
   .v b!"0" b!"0" b!"1" none, .v b!"1" b!"0" b!"1" none, .v b!"1" b!"1" b!"1" none, .v b!"0" b!"1" b!"1" none,
   quad 5 4 3 2, quad 6 7 8 9, quad 2 3 7 6, quad 3 4 8 7, quad 4 5 9 8, quad 5 2 6 9]⟩]⟩

/-- Two quadrilaterals with the same corners, cut along the same diagonal. -/
def pillow : FileAst := ⟨[], [⟨[],
  [.v b!"0" b!"0" b!"0" none, .v b!"1" b!"0" b!"0" none, .v b!"1" b!"1" b!"0" none, .v b!"0" b!"1" b!"0" none,
   quad 1 2 3 4, quad 1 4 3 2]⟩]⟩

theorem cube_valid : ValidFile cube := by
  refine ⟨by decide, .inl rfl, ?_, by decide, by decide, ?_, by decide, trivial⟩
  · simp only [ValidItems, ValidItem]; decide +kernel
  · simp only [ValidItems, ValidItem, Uniform, ValidRef, quad]
    and_intros <;> decide +kernel

theorem pillow_valid : ValidFile pillow := by
  refine ⟨by decide, .inl rfl, ?_, by decide, trivial⟩
  simp only [ValidItems, ValidItem, Uniform, ValidRef, quad]; decide +kernel

/-- The hypotheses of the theorems hold for the cube, and its twelve triangles have Euler characteristic two. -/
example : ∃ (r : ObjectSet Bytes) (o : Object Bytes), Obj.parse debug cube.text = .ok r ∧ r.objects[1]? = some o ∧
    euler (relabel corner (o.element_set.flatMap triangleEdges)) (triangleCount o.element_set) = 2 := by
  have hl : cube.text.length < 2 ^ 63 := by decide +kernel
  have hp := C28_write_read (F := Bytes) (cfg := debug) cube_valid hl
  obtain ⟨o, ho, he⟩ := C105_euler hl (file_text debug cube_valid hl) hp (j := 1) rfl (by decide +kernel) (by decide +kernel)
  exact ⟨_, o, hp, ho, he.trans (by decide +kernel)⟩

/-- The condition on diagonals is needed: the pillow has Euler characteristic two, its triangles have three. -/
example : ∃ (r : ObjectSet Bytes) (o : Object Bytes) (ast : ObjAst), Obj.parse debug pillow.text = .ok r ∧
    r.objects[0]? = some o ∧ pillow.objects[0]? = some ast ∧
    euler ((polygons ast.items).flatMap fun c => cycle (c.map Ref.v)) (polygons ast.items).length = 2 ∧
    euler (relabel corner (o.element_set.flatMap triangleEdges)) (triangleCount o.element_set) = 3 := by
  have hl : pillow.text.length < 2 ^ 63 := by decide +kernel
  have hp := C28_write_read (F := Bytes) (cfg := debug) pillow_valid hl
  exact ⟨_, _, _, hp, rfl, rfl, by decide +kernel, by decide +kernel⟩

end Verif.Props
