import Mathlib.Algebra.BigOperators.Group.List.Basic
import Mathlib.Algebra.Ring.Int.Defs
import Mathlib.Algebra.Ring.Prod
import Mathlib.Data.List.Count
import Mathlib.Tactic.Abel
import Mathlib.Tactic.LinearCombination
import Mathlib.Tactic.Ring
import Verif.Props.Tables

/-!
# Property C95: triangles and polygons

Cutting the polygons of a file into triangles keeps the surface: its boundary, its orientation and
its area; cutting a polyline into segments keeps its ends.
-/

namespace Verif.Spec.Mesh

open Verif Verif.Obj Verif.Spec.Obj

section
variable {X Y : Type}

/-- The directed edges of a path that starts at `a`. -/
def walk : X → List X → List (X × X)
  | _, [] => []
  | a, b :: l => (a, b) :: walk b l

/-- The directed edges of a path. -/
def path : List X → List (X × X)
  | [] => []
  | a :: l => walk a l

/-- The directed edges of a polygon: from each corner to the next, and from the last to the first. -/
def cycle : List X → List (X × X)
  | [] => []
  | a :: l => walk a (l ++ [a])

/-- The diagonals of a polygon from its first corner, except the two sides there. -/
def diagonals : List X → List (X × X)
  | a :: _ :: l => l.dropLast.map fun c => (a, c)
  | _ => []

/-- How often an edge is passed from `a` to `b`, minus how often it is passed from `b` to `a`. -/
def net [DecidableEq X] (edges : List (X × X)) (a b : X) : Int := edges.count (a, b) - edges.count (b, a)

/-- Every edge is passed equally often in both directions: the surface has no boundary. -/
def Closed [DecidableEq X] (edges : List (X × X)) : Prop := ∀ e ∈ edges, edges.count e = edges.count e.swap

instance [DecidableEq X] (edges : List (X × X)) : Decidable (Closed edges) := by unfold Closed; infer_instance

/-- Relabelling the ends of edges. -/
def relabel (f : X → Y) (edges : List (X × X)) : List (Y × Y) := edges.map (Prod.map f f)

end

/-- The directed edges of an element that is a triangle. -/
def triangleEdges : Element → List (VTNIndex × VTNIndex)
  | .Face a b c => [(a, b), (b, c), (c, a)]
  | _ => []

/-- The directed edge of an element that is a segment. -/
def segmentEdges : Element → List (VTNIndex × VTNIndex)
  | .Line a b => [(a, b)]
  | _ => []

/-- The position of the vertex of an index. -/
def corner : VTNIndex → Nat
  | .V v => v
  | .VT v _ => v
  | .VN v _ => v
  | .VTN v _ _ => v

/-- What is written in a file for an index of an object in front of which there are `lo` others. -/
def written (lo : Counts) : VTNIndex → Ref
  | .V v => ⟨v + 1 + lo.v, none, none⟩
  | .VT v t => ⟨v + 1 + lo.v, some (t + 1 + lo.vt), none⟩
  | .VN v n => ⟨v + 1 + lo.v, none, some (n + 1 + lo.vn)⟩
  | .VTN v t n => ⟨v + 1 + lo.v, some (t + 1 + lo.vt), some (n + 1 + lo.vn)⟩

/-- The polygons of the statements: the references of each `f`. -/
def polygons (items : List Item) : List (List Ref) := items.filterMap fun
  | .f refs => some refs
  | _ => none

/-- The polylines of the statements: the references of each `l`. -/
def polylines (items : List Item) : List (List Ref) := items.filterMap fun
  | .l refs => some refs
  | _ => none

/-- The determinant of two vectors in a plane. -/
def det {R : Type} [CommRing R] (p q : R × R) : R := p.1 * q.2 - q.1 * p.2

variable {F : Type}

/-- The vertex of what an index refers to. -/
def vertexOf : VTNTriple F → Vertex F
  | .V v => v
  | .VT v _ => v
  | .VN v _ => v
  | .VTN v _ _ => v

/-- Twice the signed area of a polygon in a plane: the sum of the determinants along its sides. -/
def shoelace {R : Type} [CommRing R] (c : List (R × R)) : R := ((cycle c).map fun e => det e.1 e.2).sum

/-- Twice the signed area of a triangle, seen in the plane of the two coordinates `X`. -/
def area {R : Type} [CommRing R] (X : Vertex F → R × R) : ElementData F → R
  | .face a b c => det (X (vertexOf b) - X (vertexOf a)) (X (vertexOf c) - X (vertexOf a))
  | _ => 0

end Verif.Spec.Mesh

namespace Verif.Props

open Verif Verif.Spec Verif.Spec.Obj Verif.Obj Verif.Spec.Mesh List

/-! ## The fan of a polygon -/

theorem fan_edges (x y z : VTNIndex) (l : List VTNIndex) :
    ((fan (x :: y :: z :: l)).flatMap triangleEdges) ~
      cycle (x :: y :: z :: l) ++ diagonals (x :: y :: z :: l) ++ (diagonals (x :: y :: z :: l)).map Prod.swap := by
  induction l generalizing y z with
  | nil => exact .refl _
  | cons w l ih =>
    have e : fan (x :: y :: z :: w :: l) = .Face x y z :: fan (x :: z :: w :: l) := rfl
    rw [e, List.flatMap_cons]
    refine (List.Perm.append_left _ (ih z w)).trans ?_
    rw [List.perm_iff_count]
    intro p
    simp only [triangleEdges, cycle, walk, diagonals, List.cons_append, List.dropLast_cons_cons, List.map_cons,
      List.count_append, List.count_cons, List.nil_append, Prod.swap]
    omega

theorem walk_segments (a : VTNIndex) (l : List VTNIndex) : (segments (a :: l)).flatMap segmentEdges = walk a l := by
  induction l generalizing a with
  | nil => rfl
  | cons b l ih =>
    have e : segments (a :: b :: l) = .Line a b :: segments (b :: l) := rfl
    rw [e, List.flatMap_cons, ih]
    rfl

theorem walk_map {X Y : Type} (f : X → Y) (a : X) (l : List X) : relabel f (walk a l) = walk (f a) (l.map f) := by
  induction l generalizing a with
  | nil => rfl
  | cons b l ih => simp only [relabel, walk, List.map_cons] at ih ⊢; rw [ih]; rfl

theorem cycle_map {X Y : Type} (f : X → Y) (l : List X) : relabel f (cycle l) = cycle (l.map f) := by
  cases l with
  | nil => rfl
  | cons a l => simp [cycle, walk_map]

theorem diagonals_map {X Y : Type} (f : X → Y) (l : List X) : relabel f (diagonals l) = diagonals (l.map f) := by
  match l with
  | [] => rfl
  | [_] => rfl
  | a :: b :: l => simp [diagonals, relabel, List.map_dropLast, Function.comp_def]

theorem written_resolve {lo hi : Counts} {r : Ref} (h : r.Valid lo hi) : written lo (r.resolve lo) = r := by
  obtain ⟨v, vt, vn⟩ := r
  obtain ⟨⟨h1, -⟩, h2, h3⟩ := h
  dsimp only at h1 h2 h3
  cases vt with
  | none =>
    cases vn with
    | none => simp [written, Ref.resolve]; omega
    | some n => have := (h3 n rfl).1; simp [written, Ref.resolve]; omega
  | some t =>
    have := (h2 t rfl).1
    cases vn with
    | none => simp [written, Ref.resolve]; omega
    | some n => have := (h3 n rfl).1; simp [written, Ref.resolve]; omega

theorem map_written {lo hi : Counts} {refs : List Ref} (h : ∀ r ∈ refs, r.Valid lo hi) :
    (refs.map (Ref.resolve lo)).map (written lo) = refs := by
  rw [List.map_map]
  conv => rhs; rw [← List.map_id refs]
  exact List.map_congr_left fun r hr => written_resolve (h r hr)

/-- The edges of the triangles of valid statements. -/
theorem items_edges {lo hi : Counts} {items : List Item} (h : ItemsValid lo hi items) :
    relabel (written lo) ((items.flatMap (Item.elements lo)).flatMap triangleEdges) ~
      (polygons items).flatMap fun c => cycle c ++ diagonals c ++ (diagonals c).map Prod.swap := by
  induction items generalizing hi with
  | nil => exact .refl _
  | cons it items ih =>
    have ih := ih h.2
    have hv := item_refs_valid h.1
    simp only [relabel, List.flatMap_cons, List.flatMap_append, List.map_append] at ih ⊢
    cases it with
    | f refs =>
      refine Perm.append (?_ : _ ~ _) ih
      obtain ⟨h3, -, -⟩ := h.1
      match refs, h3, hv with
      | x :: y :: z :: l, _, hv =>
        have e := map_written hv
        have := (fan_edges (x.resolve lo) (y.resolve lo) (z.resolve lo) (l.map (Ref.resolve lo))).map
          (Prod.map (written lo) (written lo))
        refine this.trans (.of_eq ?_)
        simp only [Item.refs, List.map_cons] at e
        have ec := cycle_map (written lo) (x.resolve lo :: y.resolve lo :: z.resolve lo :: l.map (Ref.resolve lo))
        have ed := diagonals_map (written lo) (x.resolve lo :: y.resolve lo :: z.resolve lo :: l.map (Ref.resolve lo))
        simp only [List.map_cons, e, relabel] at ec ed
        rw [List.map_append, List.map_append, ec]
        show _ = cycle (x :: y :: z :: l) ++ diagonals (x :: y :: z :: l) ++
          (diagonals (x :: y :: z :: l)).map Prod.swap
        rw [← ed, List.map_map, List.map_map]
        rfl
    | p is =>
      have : (Item.elements lo (.p is)).flatMap triangleEdges = [] := by
        simp [Item.elements, triangleEdges, List.flatMap_map]
      rw [this]; exact ih
    | l refs =>
      have : (Item.elements lo (.l refs)).flatMap triangleEdges = [] := by
        refine List.flatMap_eq_nil_iff.mpr fun e he => ?_
        obtain ⟨a, -, b, -, rfl⟩ := mem_zipWith _ he
        rfl
      rw [this]; exact ih
    | _ => exact ih

/-- The edges of the segments of valid statements. -/
theorem items_segments {lo hi : Counts} {items : List Item} (h : ItemsValid lo hi items) :
    relabel (written lo) ((items.flatMap (Item.elements lo)).flatMap segmentEdges) =
      (polylines items).flatMap path := by
  induction items generalizing hi with
  | nil => rfl
  | cons it items ih =>
    have ih := ih h.2
    have hv := item_refs_valid h.1
    simp only [relabel, List.flatMap_cons, List.flatMap_append, List.map_append] at ih ⊢
    rw [ih]
    cases it with
    | l refs =>
      show _ = path refs ++ _
      congr 1
      obtain ⟨h2, -, -⟩ := h.1
      match refs, h2, hv with
      | x :: l, _, hv =>
        have e := map_written hv
        simp only [Item.refs, List.map_cons, List.cons.injEq] at e
        simp only [Item.elements, List.map_cons, walk_segments]
        have := walk_map (written lo) (x.resolve lo) (l.map (Ref.resolve lo))
        rw [e.1, e.2] at this
        exact this
    | p is =>
      have : (Item.elements lo (.p is)).flatMap segmentEdges = [] := by
        simp [Item.elements, segmentEdges, List.flatMap_map]
      rw [this]; rfl
    | f refs =>
      have : (Item.elements lo (.f refs)).flatMap segmentEdges = [] := by
        refine List.flatMap_eq_nil_iff.mpr fun e he => ?_
        cases refs with
        | nil => simp [Item.elements, fan] at he
        | cons z refs =>
          obtain ⟨a, -, b, -, rfl⟩ := mem_zipWith _ he
          rfl
      rw [this]; rfl
    | _ => rfl

/-! ## Counting edges -/

theorem relabel_relabel {X Y Z : Type} (f : X → Y) (g : Y → Z) (E : List (X × X)) :
    relabel g (relabel f E) = relabel (g ∘ f) E := by
  simp [relabel, Function.comp_def]

theorem net_perm {X : Type} [DecidableEq X] {E E' : List (X × X)} (h : E ~ E') (a b : X) : net E a b = net E' a b := by
  simp only [net, h.count_eq]

theorem net_append {X : Type} [DecidableEq X] (E E' : List (X × X)) (a b : X) :
    net (E ++ E') a b = net E a b + net E' a b := by
  simp only [net, List.count_append]
  push_cast
  ring

theorem count_swap {X : Type} [DecidableEq X] (E : List (X × X)) (a b : X) :
    (E.map Prod.swap).count (a, b) = E.count (b, a) :=
  List.count_map_of_injective E Prod.swap Prod.swap_injective (b, a)

theorem net_swap {X : Type} [DecidableEq X] (E : List (X × X)) (a b : X) :
    net (E.map Prod.swap) a b = - net E a b := by
  simp only [net, count_swap]
  ring

theorem net_relabel {X Y : Type} [DecidableEq X] [DecidableEq Y] {f : X → Y} (hf : Function.Injective f)
    (E : List (X × X)) (a b : X) : net (relabel f E) (f a) (f b) = net E a b := by
  have h := fun e => List.count_map_of_injective E (Prod.map f f) (hf.prodMap hf) e
  have h1 := h (a, b)
  have h2 := h (b, a)
  simp only [Prod.map] at h1 h2
  simp only [net, relabel]
  rw [← h1, ← h2]

theorem net_cut {X : Type} [DecidableEq X] (ps : List (List X)) (a b : X) :
    net (ps.flatMap fun c => cycle c ++ diagonals c ++ (diagonals c).map Prod.swap) a b = net (ps.flatMap cycle) a b := by
  induction ps with
  | nil => rfl
  | cons c ps ih =>
    simp only [List.flatMap_cons, net_append, ih, net_swap]
    ring

theorem closed_iff {X : Type} [DecidableEq X] (E : List (X × X)) : Closed E ↔ ∀ a b, net E a b = 0 := by
  constructor
  · intro h a b
    simp only [net]
    by_cases h1 : (a, b) ∈ E
    · have := h _ h1
      simp only [Prod.swap] at this
      omega
    · by_cases h2 : (b, a) ∈ E
      · have := h _ h2
        simp only [Prod.swap] at this
        omega
      · rw [List.count_eq_zero.mpr h1, List.count_eq_zero.mpr h2]; rfl
  · rintro h ⟨a, b⟩ -
    have := h a b
    simp only [net] at this
    simp only [Prod.swap]
    omega

theorem corner_written (lo : Counts) (x : VTNIndex) : (written lo x).v = corner x + 1 + lo.v := by
  cases x <;> rfl

theorem mem_walk {X : Type} {e : X × X} {a : X} {l : List X} (h : e ∈ walk a l) : e.1 ∈ a :: l ∧ e.2 ∈ l := by
  induction l generalizing a with
  | nil => simp [walk] at h
  | cons b l ih =>
    rcases List.mem_cons.mp h with rfl | h
    · simp
    · have := ih h
      exact ⟨List.mem_cons_of_mem _ this.1, List.mem_cons_of_mem _ this.2⟩

theorem mem_cycle {X : Type} {e : X × X} {l : List X} (h : e ∈ cycle l) : e.1 ∈ l ∧ e.2 ∈ l := by
  cases l with
  | nil => simp [cycle] at h
  | cons a l =>
    have := mem_walk h
    simp only [List.mem_cons, List.mem_append, List.not_mem_nil, or_false] at this ⊢
    tauto

theorem path_ends (c : List Ref) (b : Nat) :
    ((((path c).map fun e => e.2.v).count b : Int) - ((path c).map fun e => e.1.v).count b) =
      ((c.getLast?.map Ref.v).toList.count b : Int) - (c.head?.map Ref.v).toList.count b := by
  cases c with
  | nil => simp [path]
  | cons x l =>
    induction l generalizing x with
    | nil => simp [path, walk]
    | cons y l ih =>
      have := ih y
      simp only [path, walk, List.map_cons, List.count_cons, List.head?_cons, Option.map_some, Option.toList_some,
        List.count_nil, List.getLast?_cons_cons] at this ⊢
      push_cast at this ⊢
      omega

/-! ## Areas -/

section
variable {R : Type} [CommRing R]

theorem det_sub (p q r : R × R) : det (q - p) (r - p) = det p q + det q r + det r p := by
  simp only [det, Prod.fst_sub, Prod.snd_sub]
  ring

theorem fan_area (p q : R × R) (l : List (R × R)) :
    (List.zipWith (fun a b => det (a - p) (b - p)) (q :: l) l).sum = shoelace (p :: q :: l) := by
  induction l generalizing q with
  | nil => simp [shoelace, cycle, walk, det]
  | cons s l ih =>
    rw [List.zipWith_cons_cons, List.sum_cons, ih, det_sub]
    simp only [shoelace, cycle, walk, List.cons_append, List.map_cons, List.sum_cons]
    have : det s p + det p s = 0 := by simp only [det]; ring
    linear_combination this

theorem item_area {F : Type} (X : Vertex F → R × R) (P : Ref → R × R) {data : Ref → Option (VTNTriple F)} {it : Item}
    (hP : ∀ ref ∈ it.refs, ∃ t, data ref = some t ∧ X (vertexOf t) = P ref) :
    (((it.drawn data).filterMap id).map (area X)).sum =
      ((polygons [it]).map fun c => shoelace (c.map P)).sum := by
  cases it with
  | f refs =>
    cases refs with
    | nil => simp [Item.drawn, polygons, shoelace, cycle]
    | cons z refs =>
      obtain ⟨t, ht, hz⟩ := hP z List.mem_cons_self
      have hQ : ∀ ref ∈ refs, ∃ t, data ref = some t ∧ X (vertexOf t) = P ref :=
        fun ref h => hP ref (List.mem_cons_of_mem _ h)
      clear hP
      have e : ((polygons [.f (z :: refs)]).map fun c => shoelace (c.map P)).sum = shoelace ((z :: refs).map P) := by
        simp [polygons]
      rw [e]
      clear e
      cases refs with
      | nil => simp [Item.drawn, shoelace, cycle, walk, det]
      | cons y refs =>
        show _ = shoelace (P z :: P y :: refs.map P)
        rw [← fan_area]
        simp only [Item.drawn, List.tail_cons]
        induction refs generalizing y with
        | nil => rfl
        | cons w refs ih =>
          obtain ⟨u, hu, hy⟩ := hQ y List.mem_cons_self
          obtain ⟨v, hv, hw⟩ := hQ w (by simp)
          rw [List.zipWith_cons_cons, List.map_cons, List.zipWith_cons_cons, ht, hu, hv]
          rw [List.filterMap_cons, List.sum_cons, ← ih w fun ref h => hQ ref (List.mem_cons_of_mem _ h)]
          simp only [id, List.map_cons, List.sum_cons, area, hz, hy, hw, ht]
  | p is =>
    simp only [Item.drawn]
    induction is with
    | nil => rfl
    | cons k is ih =>
      obtain ⟨t, ht, -⟩ := hP ⟨k, none, none⟩ (by simp [Item.refs])
      rw [List.map_cons, ht]
      have := ih fun ref h => hP ref (by simp only [Item.refs, List.map_cons] at h ⊢; exact List.mem_cons_of_mem _ h)
      simpa [area, polygons] using this
  | l refs =>
    simp only [Item.drawn]
    apply List.sum_eq_zero
    intro x hx
    obtain ⟨d, hd, rfl⟩ := List.mem_map.mp hx
    obtain ⟨d', hd', hdd⟩ := List.mem_filterMap.mp hd
    obtain ⟨a, -, b, -, rfl⟩ := mem_zipWith _ hd'
    simp only [id] at hdd
    split at hdd
    · simp only [Option.some.injEq] at hdd
      rw [← hdd]; rfl
    · cases hdd
  | _ => rfl

end

/-! ## C95 -/

variable {F : Type} [FloatSem F] {cfg : Cfg} {input : Bytes} {r : ObjectSet F}

section
variable (hlen : input.length < 2 ^ 63) {file : FileAst} (hf : FileOk cfg (tokens input) file)
  (h : Obj.parse cfg input = .ok r) {j : Nat} {ast : ObjAst} (ha : file.objects[j]? = some ast)

include hlen hf h ha

theorem written_data {it : Item} (hit : it ∈ ast.items) {ref : Ref} (href : ref ∈ it.refs)
    {R : Type} [CommRing R] {X : Vertex F → R × R} : ∃ t,
      Ref.data ((file.objects.flatMap ObjAst.items).filterMap Item.vertex?)
        ((file.objects.flatMap ObjAst.items).filterMap Item.texture?)
        ((file.objects.flatMap ObjAst.items).filterMap Item.normal?) ref = some t ∧
      X (vertexOf t) = ((file.objects.flatMap ObjAst.items).filterMap Item.vertex?)[ref.v - 1]?.elim 0 X := by
  obtain ⟨h1, hv⟩ := parsed_object hlen hf h ha
  have hall : file.objects.flatMap ObjAst.items = (file.objects.take j).flatMap ObjAst.items ++
      (ast.items ++ (file.objects.drop (j + 1)).flatMap ObjAst.items) := by
    obtain ⟨hj, hje⟩ := List.getElem?_eq_some_iff.mp ha
    have e : file.objects = file.objects.take j ++ file.objects[j] :: file.objects.drop (j + 1) := by simp
    conv => lhs; rw [e]
    rw [List.flatMap_append, List.flatMap_cons, hje]
  have hd := resolve_data (F := F) ((file.objects.take j).flatMap ObjAst.items) ast.items
    ((file.objects.drop (j + 1)).flatMap ObjAst.items) ast.name (items_refs_valid hv it hit ref href)
  rw [← hall] at hd
  obtain ⟨hd, hs⟩ := hd
  rw [hd] at hs
  obtain ⟨t, ht⟩ := Option.isSome_iff_exists.mp hs
  refine ⟨t, ht, ?_⟩
  unfold Ref.data at ht
  generalize ((file.objects.flatMap ObjAst.items).filterMap (Item.vertex? (F := F)))[ref.v - 1]? = x at ht ⊢
  cases x with
  | none => simp at ht
  | some v =>
    repeat' split at ht
    all_goals first
      | (simp only [Option.some.injEq] at ht; subst ht; simp_all [vertexOf])
      | cases ht

/-- **C95** The edges of the triangles of an object are the sides of the polygons of its `f`
statements, each as often as it is one there and in the same direction, and the diagonals from the
first corner of each polygon, once in each direction; whole references are compared, as they are
written in the file. -/
theorem C95_edges : ∃ o, r.objects[j]? = some o ∧
    relabel (written (countsBefore file.objects j)) (o.element_set.flatMap triangleEdges) ~
      (polygons ast.items).flatMap fun c => cycle c ++ diagonals c ++ (diagonals c).map Prod.swap := by
  obtain ⟨h1, hv⟩ := parsed_object hlen hf h ha
  refine ⟨_, h1, ?_⟩
  have hd := (data_of (F := F) (countsBefore file.objects j) ast.items).elements
  have he : (objMeaning (countsBefore file.objects j) ast : Object F).element_set =
    ast.items.flatMap (Item.elements (countsBefore file.objects j)) := hd
  rw [he]
  exact items_edges hv

/-- **C95** The boundary of the triangles is the boundary of the polygons, with its direction: each
edge between two vertices is passed equally often, counted by direction. -/
theorem C95_boundary : ∃ o, r.objects[j]? = some o ∧ ∀ a b : Nat,
    net (relabel corner (o.element_set.flatMap triangleEdges)) a b =
      net ((polygons ast.items).flatMap fun c => cycle (c.map Ref.v))
        (a + 1 + (countsBefore file.objects j).v) (b + 1 + (countsBefore file.objects j).v) := by
  obtain ⟨o, ho, hp⟩ := C95_edges hlen hf h ha
  refine ⟨o, ho, fun a b => ?_⟩
  have hp := (hp.map (Prod.map Ref.v Ref.v) : _ ~ _)
  have e1 : (relabel (written (countsBefore file.objects j)) (o.element_set.flatMap triangleEdges)).map
      (Prod.map Ref.v Ref.v) = relabel (fun n => n + 1 + (countsBefore file.objects j).v)
        (relabel corner (o.element_set.flatMap triangleEdges)) := by
    rw [relabel_relabel]
    show relabel Ref.v _ = _
    rw [relabel_relabel]
    congr 1
    funext x
    exact corner_written _ x
  have e2 : ((polygons ast.items).flatMap fun c => cycle c ++ diagonals c ++ (diagonals c).map Prod.swap).map
      (Prod.map Ref.v Ref.v) = ((polygons ast.items).map (List.map Ref.v)).flatMap
        fun c => cycle c ++ diagonals c ++ (diagonals c).map Prod.swap := by
    rw [List.map_flatMap, List.flatMap_map]
    congr 1
    funext c
    have ec := cycle_map Ref.v c
    have ed := diagonals_map Ref.v c
    simp only [relabel] at ec ed
    rw [List.map_append, List.map_append, ec, ← ed, List.map_map, List.map_map]
    rfl
  rw [e1, e2] at hp
  rw [← net_relabel (f := fun n => n + 1 + (countsBefore file.objects j).v) (fun a b h => by simpa using h),
    net_perm hp, net_cut, List.flatMap_map]

/-- **C95** The triangles make up a closed surface exactly if the polygons do. -/
theorem C95_closed : ∃ o, r.objects[j]? = some o ∧
    (Closed (relabel corner (o.element_set.flatMap triangleEdges)) ↔
      Closed ((polygons ast.items).flatMap fun c => cycle (c.map Ref.v))) := by
  obtain ⟨h1, hv⟩ := parsed_object hlen hf h ha
  obtain ⟨o, ho, hb⟩ := C95_boundary hlen hf h ha
  refine ⟨o, ho, ?_⟩
  rw [closed_iff, closed_iff]
  constructor
  · intro hc k k'
    by_cases hk : (countsBefore file.objects j).v < k ∧ (countsBefore file.objects j).v < k'
    · obtain ⟨a, rfl⟩ : ∃ a, k = a + 1 + (countsBefore file.objects j).v := ⟨k - 1 - (countsBefore file.objects j).v, by omega⟩
      obtain ⟨b, rfl⟩ : ∃ b, k' = b + 1 + (countsBefore file.objects j).v := ⟨k' - 1 - (countsBefore file.objects j).v, by omega⟩
      rw [← hb, hc]
    · have hpos : ∀ e ∈ (polygons ast.items).flatMap fun c => cycle (c.map Ref.v),
          (countsBefore file.objects j).v < e.1 ∧ (countsBefore file.objects j).v < e.2 := by
        intro e he
        obtain ⟨c, hcm, he⟩ := List.mem_flatMap.mp he
        obtain ⟨it, hit, hc'⟩ := List.mem_filterMap.mp hcm
        have hr : ∀ x ∈ c.map Ref.v, (countsBefore file.objects j).v < x := by
          intro x hx
          obtain ⟨ref, href, rfl⟩ := List.mem_map.mp hx
          cases it <;> simp only [Option.some.injEq, reduceCtorEq] at hc'
          subst hc'
          exact (items_refs_valid hv _ hit ref href).1.1
        have := mem_cycle he
        exact ⟨hr _ this.1, hr _ this.2⟩
      simp only [net]
      rw [List.count_eq_zero.mpr fun h => hk (hpos _ h), List.count_eq_zero.mpr fun h => hk (hpos _ h).symm]
      rfl
  · intro hc a b
    rw [hb, hc]

/-- **C95** The triangles have the area of the polygons, with its sign: in the plane of any two
coordinates of the vertices, their areas add up to the same number. -/
theorem C95_area {R : Type} [CommRing R] (X : Vertex F → R × R) : ∃ o, r.objects[j]? = some o ∧
    ((o.element_set.filterMap (Obj.lookup o)).map (area X)).sum =
      ((polygons ast.items).map fun c => shoelace (c.map fun ref =>
        ((file.objects.flatMap ObjAst.items).filterMap Item.vertex?)[ref.v - 1]?.elim 0 X)).sum := by
  obtain ⟨o, ho, hd, hn⟩ := C19_indices_denote hlen hf h ha
  refine ⟨o, ho, ?_⟩
  obtain ⟨h1, hv⟩ := parsed_object hlen hf h ha
  have hsome := fun it (hit : it ∈ ast.items) ref (href : ref ∈ it.refs) =>
    written_data hlen hf h ha hit href (X := X)
  have e : o.element_set.filterMap (Obj.lookup o) = (o.element_set.map (Obj.lookup o)).filterMap id := by
    rw [List.filterMap_map]; rfl
  rw [e, hd]
  clear hd hn e
  revert hsome
  generalize ast.items = items
  intro hsome
  induction items with
  | nil => rfl
  | cons it items ih =>
    rw [List.flatMap_cons, List.filterMap_append, List.map_append, List.sum_append,
      ih fun it' h' => hsome it' (List.mem_cons_of_mem _ h'),
      item_area X (fun ref => ((file.objects.flatMap ObjAst.items).filterMap Item.vertex?)[ref.v - 1]?.elim 0 X)
        (hsome it List.mem_cons_self), ← List.sum_append, ← List.map_append]
    congr 2
    cases it <;> rfl

/-- **C95** The segments of an object are the steps of the polylines of its `l` statements, in order. -/
theorem C95_segments : ∃ o, r.objects[j]? = some o ∧
    relabel (written (countsBefore file.objects j)) (o.element_set.flatMap segmentEdges) =
      (polylines ast.items).flatMap path := by
  obtain ⟨h1, hv⟩ := parsed_object hlen hf h ha
  refine ⟨_, h1, ?_⟩
  have he : (objMeaning (countsBefore file.objects j) ast : Object F).element_set =
    ast.items.flatMap (Item.elements (countsBefore file.objects j)) :=
      (data_of (F := F) (countsBefore file.objects j) ast.items).elements
  rw [he]
  exact items_segments hv

/-- **C95** The ends of the segments cancel at the inner vertices of a polyline: at every vertex as
many more segments end than start as polylines end more than start there. -/
theorem C95_ends : ∃ o, r.objects[j]? = some o ∧ ∀ a : Nat,
    (((o.element_set.flatMap segmentEdges).map fun e => corner e.2).count a : Int) -
        ((o.element_set.flatMap segmentEdges).map fun e => corner e.1).count a =
      (((polylines ast.items).filterMap fun c => c.getLast?.map Ref.v).count
          (a + 1 + (countsBefore file.objects j).v) : Int) -
        ((polylines ast.items).filterMap fun c => c.head?.map Ref.v).count
          (a + 1 + (countsBefore file.objects j).v) := by
  obtain ⟨o, ho, hs⟩ := C95_segments hlen hf h ha
  refine ⟨o, ho, fun a => ?_⟩
  have hinj : Function.Injective fun n => n + 1 + (countsBefore file.objects j).v := fun a b h => by simpa using h
  have k : ∀ (g : ∀ {X : Type}, X × X → X) (_ : ∀ {X Y : Type} (f : X → Y) (e : X × X), g (Prod.map f f e) = f (g e)),
      ((o.element_set.flatMap segmentEdges).map fun e => corner (g e)).count a =
        (((polylines ast.items).flatMap path).map fun e => (g e).v).count (a + 1 + (countsBefore file.objects j).v) := by
    intro g hg
    rw [← hs, relabel, List.map_map, ← List.count_map_of_injective _ _ hinj, List.map_map]
    congr 1
    refine List.map_congr_left fun e _ => ?_
    simp only [Function.comp_apply, hg, corner_written]
  rw [k Prod.snd fun _ _ => rfl, k Prod.fst fun _ _ => rfl]
  generalize polylines ast.items = ps
  generalize a + 1 + (countsBefore file.objects j).v = b
  induction ps with
  | nil => rfl
  | cons c ps ih =>
    have := path_ends c b
    simp only [List.flatMap_cons, List.map_append, List.count_append, List.filterMap_cons]
    cases c with
    | nil => simpa [path] using ih
    | cons x l =>
      simp only [List.head?_cons, Option.map_some, List.getLast?_cons, List.count_cons, Option.toList_some,
        List.count_nil] at this ⊢
      push_cast at this ih ⊢
      omega

end

/-! ## A pyramid over a square -/

/-- A pyramid whose base is one `f` with four corners; the second object lacks one side. -/
def pyramid : Bytes :=
  b!"v 0 0 0\nv 2 0 0\nv 2 2 0\nv 0 2 0\nv 1 1 1\nf 1 4 3 2\nf 1 2 5\nf 2 3 5\nf 3 4 5\nf 4 1 5\n\
   o open\nv 0 0 0\nv 2 0 0\nv 2 2 0\nv 0 2 0\nv 1 1 1\nf 6 9 8 7\nf 6 7 10\nf 7 8 10\nf 8 9 10\nl 6 10 8\n"

/-- The first two coordinates of a vertex, for one-digit values. -/
def digits (v : Vertex Bytes) : Int × Int := ((v.x.headD 48).toNat - 48, (v.y.headD 48).toNat - 48)

/-- What is measured of an object: whether it is closed, twice its areas as seen from above, and how
many triangles it has. -/
def measured (o : Object Bytes) : Bool × Int × Nat :=
  (decide (Closed (relabel corner (o.element_set.flatMap triangleEdges))),
    ((o.element_set.filterMap (Obj.lookup o)).map (area digits)).sum, (o.element_set.flatMap triangleEdges).length / 3)

theorem pyramid_parses : ∃ r : ObjectSet Bytes, Obj.parse debug pyramid = .ok r ∧
    r.objects.map measured = [(true, 0, 6), (false, -2, 5)] := by
  have h : (match (Obj.parse debug pyramid : Out Obj.ErrorKind (ObjectSet Bytes)) with
    | .ok r => decide (r.objects.map measured = [(true, 0, 6), (false, -2, 5)])
    | _ => false) = true := by decide +kernel
  generalize hx : (Obj.parse debug pyramid : Out _ (ObjectSet Bytes)) = x at h
  cases x with
  | ok r => exact ⟨r, rfl, of_decide_eq_true h⟩
  | _ => cases h

/-- The hypotheses of the theorems of this file hold for both objects of the pyramid, and one of its
objects is closed while the other is not. -/
example : ∃ (r : ObjectSet Bytes) (file : FileAst) (a b : ObjAst), pyramid.length < 2 ^ 63 ∧
    FileOk debug (tokens pyramid) file ∧ Obj.parse debug pyramid = .ok r ∧
    file.objects[0]? = some a ∧ file.objects[1]? = some b ∧
    Closed ((polygons a.items).flatMap fun c => cycle (c.map Ref.v)) ∧
    ¬ Closed ((polygons b.items).flatMap fun c => cycle (c.map Ref.v)) := by
  obtain ⟨r, hr, hm⟩ := pyramid_parses
  have hlen : pyramid.length < 2 ^ 63 := by decide +kernel
  obtain ⟨file, hf, he⟩ := (parse_ok_iff hlen).mp hr
  have hl : file.objects.length = 2 := by
    have h1 : r.objects.length = 2 := by simpa using congrArg List.length hm
    have := congrArg (fun r => r.objects.length) he
    simp only [meaning, objectsMeaning_length] at this
    omega
  clear he
  obtain ⟨a, ha⟩ : ∃ a, file.objects[0]? = some a := ⟨_, List.getElem?_eq_getElem (by rw [hl]; decide)⟩
  obtain ⟨b, hb⟩ : ∃ b, file.objects[1]? = some b := ⟨_, List.getElem?_eq_getElem (by rw [hl]; decide)⟩
  obtain ⟨o, ho, hc⟩ := C95_closed hlen hf hr ha
  obtain ⟨o', ho', hc'⟩ := C95_closed hlen hf hr hb
  have m := congrArg (·[0]?) hm
  have m' := congrArg (·[1]?) hm
  simp only [List.getElem?_map, ho, ho', Option.map_some, measured] at m m'
  simp at m m'
  exact ⟨r, file, _, _, hlen, hf, hr, ha, hb, hc.mp m.1, fun h => m'.1 (hc'.mpr h)⟩

end Verif.Props
