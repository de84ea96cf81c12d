import Verif.Props.Samples
import Verif.Proofs.ObjIndices

/-!
# Properties C10–C20: the tables of a parsed object
-/

namespace Verif.Props

open Verif Verif.Obj Verif.Spec Verif.Spec.Obj

variable {F : Type} [FloatSem F] {cfg : Cfg} {input : Bytes} {r : ObjectSet F}

/-- The object of a file with the given number, and its statements. -/
theorem parsed_object (hlen : input.length < 2 ^ 63) {file : FileAst}
    (hf : FileOk cfg (tokens input) file) (h : Obj.parse cfg input = .ok r) {j : Nat} {ast : ObjAst}
    (ha : file.objects[j]? = some ast) :
    r.objects[j]? = some (objMeaning (countsBefore file.objects j) ast) ∧
      ItemsValid (countsBefore file.objects j) (countsBefore file.objects j) ast.items := by
  rw [parse_ok_of hlen hf] at h
  simp only [Out.ok.injEq] at h
  obtain ⟨rest, _, ho⟩ := hf
  have hv := objects_valid ho j ast ha
  rw [counts_zero_add] at hv
  refine ⟨?_, hv.1⟩
  rw [← h]
  show (objectsMeaning _ _)[j]? = _
  rw [objectsMeaning_get, ha, counts_zero_add]
  rfl

/-- Every object of a parse result comes from statements with valid references. -/
theorem parsed_from (hlen : input.length < 2 ^ 63) (h : Obj.parse cfg input = .ok r)
    {o : Object F} (ho : o ∈ r.objects) :
    ∃ before items after name, o = objMeaning (countsOf before) ⟨name, items⟩ ∧
      ItemsValid (countsOf before) (countsOf before) items ∧
      ∃ file, FileOk cfg (tokens input) file ∧
        file.objects.flatMap ObjAst.items = before ++ (items ++ after) := by
  obtain ⟨file, hf, hr⟩ := (parse_ok_iff hlen).mp h
  obtain ⟨j, hj, hjo⟩ := List.mem_iff_getElem.mp ho
  have hlen' : r.objects.length = file.objects.length := by
    rw [hr]; exact objectsMeaning_length _ _
  have ha : file.objects[j]? = some file.objects[j] := List.getElem?_eq_getElem (by omega)
  obtain ⟨h1, h2⟩ := parsed_object hlen hf h ha
  have h3 : r.objects[j]? = some o := by rw [List.getElem?_eq_getElem hj, hjo]
  rw [h1] at h3
  simp only [Option.some.injEq] at h3
  refine ⟨(file.objects.take j).flatMap ObjAst.items, file.objects[j].items,
    (file.objects.drop (j + 1)).flatMap ObjAst.items, file.objects[j].name, h3.symm, h2, file, hf, ?_⟩
  have e : file.objects = file.objects.take j ++ file.objects[j] :: file.objects.drop (j + 1) := by simp
  conv => lhs; rw [e]
  rw [List.flatMap_append, List.flatMap_cons]

/-- Every element comes from a statement. -/
theorem find_statement {items : List Item} {i : Nat} (h : i < sizes items) :
    ∃ pre it post, items = pre ++ it :: post ∧ it.isElement = true ∧
      sizes pre ≤ i ∧ i < sizes pre + it.size := by
  induction items generalizing i with
  | nil => simp [sizes] at h
  | cons it items ih =>
    have hc : sizes (it :: items) = it.size + sizes items := by simp [sizes]
    by_cases hi : i < it.size
    · refine ⟨[], it, items, rfl, ?_, by simp [sizes], by simpa [sizes] using hi⟩
      cases it <;> simp_all [Item.size, Item.isElement]
    · obtain ⟨pre, it', post, e, h1, h2, h3⟩ := ih (i := i - it.size) (by omega)
      have hc' : sizes (it :: pre) = it.size + sizes pre := by simp [sizes]
      exact ⟨it :: pre, it', post, by simp [e], h1, by omega, by omega⟩

theorem element_set_length (lo : Counts) (ast : ObjAst) :
    (objMeaning lo ast : Object F).element_set.length = sizes ast.items := by
  have := (data_of (F := F) lo ast.items).elements
  show (ast.items.foldl (Acc.step lo) ({} : Acc F)).elements.length = _
  rw [this, flatMap_elements_length]

/-! ## C10 -/

/-- **C10** Every index stored in a parsed object set resolves. -/
theorem C10_indices_resolve (hlen : input.length < 2 ^ 63) (h : Obj.parse cfg input = .ok r) :
    ∀ o ∈ r.objects, ∀ e ∈ o.element_set, ∀ x ∈ indices e, (o.get_vtn_triple x).isSome = true := by
  intro o ho e he x hx
  obtain ⟨before, items, after, name, rfl, hv, -⟩ := parsed_from hlen h ho
  have hd := (data_of (F := F) (countsOf before) items).elements
  have he' : e ∈ items.flatMap (Item.elements (countsOf before)) := by rw [← hd]; exact he
  obtain ⟨it, hit, he⟩ := List.mem_flatMap.mp he'
  obtain ⟨ref, hr, rfl⟩ := elements_indices he x hx
  exact (resolve_data before items after name (items_refs_valid hv it hit ref hr)).2

example : ∃ o ∈ sampleResult.objects, ∃ e ∈ o.element_set, (indices e).length = 3 := by decide +kernel

/-! ## C11 -/

/-- **C11** All indices of an element have the same form, and points have form `V`. -/
theorem C11_uniform_elements (hlen : input.length < 2 ^ 63) (h : Obj.parse cfg input = .ok r) :
    ∀ o ∈ r.objects, ∀ e ∈ o.element_set,
      (∀ x ∈ indices e, ∀ y ∈ indices e,
        (∃ a b, x = .V a ∧ y = .V b) ∨ (∃ a a' b b', x = .VT a a' ∧ y = .VT b b') ∨
        (∃ a a' b b', x = .VN a a' ∧ y = .VN b b') ∨
        (∃ a a' a'' b b' b'', x = .VTN a a' a'' ∧ y = .VTN b b' b'')) ∧
      (∀ x, e = .Point x → ∃ a, x = .V a) := by
  intro o ho e he
  obtain ⟨before, items, after, name, rfl, hv, -⟩ := parsed_from hlen h ho
  have hd := (data_of (F := F) (countsOf before) items).elements
  have he' : e ∈ items.flatMap (Item.elements (countsOf before)) := by rw [← hd]; exact he
  obtain ⟨it, hit, he⟩ := List.mem_flatMap.mp he'
  constructor
  · intro x hx y hy
    obtain ⟨a, ha, rfl⟩ := elements_indices he x hx
    obtain ⟨b, hb, rfl⟩ := elements_indices he y hy
    have hf := items_uniform hv it hit a ha b hb
    rcases a with ⟨av, at', an⟩
    rcases b with ⟨bv, bt, bn⟩
    cases at' <;> cases an <;> cases bt <;> cases bn <;> simp_all [Ref.form, Ref.resolve]
  · rintro x rfl
    cases it with
    | p is =>
      simp only [Item.elements, List.mem_map] at he
      obtain ⟨k, _, hk⟩ := he
      simp only [Element.Point.injEq] at hk
      exact ⟨_, hk.symm⟩
    | l refs =>
      obtain ⟨_, _, _, _, h⟩ := mem_zipWith _ he
      cases h
    | f refs =>
      cases refs with
      | nil => simp [Item.elements, fan] at he
      | cons z refs =>
        obtain ⟨_, _, _, _, h⟩ := mem_zipWith _ he
        cases h
    | _ => simp [Item.elements] at he

example : ∃ o ∈ sampleResult.objects, ∃ e ∈ o.element_set, e = .Line (.VN 0 0) (.VN 1 0) := by
  decide +kernel

/-! ## C12 -/

/-- **C12** The shape entries are in bijection with the elements: entry `i` is about
element `i`. -/
theorem C12_shape_bijection (hlen : input.length < 2 ^ 63) (h : Obj.parse cfg input = .ok r) :
    ∀ o ∈ r.objects, o.shape_set.map ShapeEntry.element = List.range o.element_set.length := by
  intro o ho
  obtain ⟨before, items, after, name, rfl, -, -⟩ := parsed_from hlen h ho
  exact (data_of (F := F) (countsOf before) items).shapes

/-- **C12** The same, entry by entry. -/
theorem C12_shape_entries (hlen : input.length < 2 ^ 63) (h : Obj.parse cfg input = .ok r) :
    ∀ o ∈ r.objects, o.shape_set.length = o.element_set.length ∧
      ∀ (i : Nat) (e : ShapeEntry), o.shape_set[i]? = some e → e.element = i := by
  intro o ho
  have := C12_shape_bijection hlen h o ho
  refine ⟨by simpa using congrArg List.length this, fun i e he => ?_⟩
  have h2 := congrArg (fun l => l[i]?) this
  simp only [List.getElem?_map, he, Option.map_some] at h2
  have hi : i < o.element_set.length := by
    by_contra hc
    rw [List.getElem?_eq_none (by simpa using hc)] at h2
    cases h2
  rw [List.getElem?_eq_getElem (by simpa using hi)] at h2
  simpa using h2

example : (sampleResult.objects.map fun o => o.shape_set.length) = [6, 3] := by decide +kernel

/-! ## C13 -/

/-- **C13** Group indices and smoothing group indices are in bounds. -/
theorem C13_in_bounds (hlen : input.length < 2 ^ 63) (h : Obj.parse cfg input = .ok r) :
    ∀ o ∈ r.objects, ∀ e ∈ o.shape_set,
      (∀ g ∈ e.groups, g < o.group_set.length) ∧
      e.smoothing_group < o.smoothing_group_set.length := by
  intro o ho e he
  have hcard := (C12_shape_entries hlen h o ho).1
  obtain ⟨before, items, after, name, rfl, -, -⟩ := parsed_from hlen h ho
  obtain ⟨i, hi, hie⟩ := List.mem_iff_getElem.mp he
  rw [hcard, element_set_length] at hi
  obtain ⟨pre, it, post, rfl, h1, h2, h3⟩ := find_statement hi
  obtain ⟨e', g1, -, g2, g3, -⟩ := attribution (F := F) (countsOf before) h1 name (post := post) h2 h3
  rw [List.getElem?_eq_getElem (by rw [hcard, element_set_length]; exact hi)] at g1
  simp only [Option.some.injEq] at g1
  have : e' = e := g1.symm.trans hie
  subst this
  constructor
  · intro g hg
    have hm : ((objMeaning (countsOf before) ⟨name, pre ++ it :: post⟩ : Object F).group_set[g]?.map
        Group.name) ∈ namesAt (objMeaning (countsOf before) ⟨name, pre ++ it :: post⟩ : Object F).group_set
          e'.groups := List.mem_map.mpr ⟨g, hg, rfl⟩
    rw [g2] at hm
    obtain ⟨x, _, hx⟩ := List.mem_map.mp hm
    by_contra hc
    rw [List.getElem?_eq_none (by omega)] at hx
    cases hx
  · by_contra hc
    rw [List.getElem?_eq_none (by omega)] at g3
    cases g3

example : ∃ o ∈ sampleResult.objects, ∃ e ∈ o.shape_set, e.groups = [0, 1] ∧ o.group_set.length = 2 := by
  decide +kernel

/-! ## C14 -/

/-- **C14** The geometries partition the elements, in order; only the last can be empty. -/
theorem C14_geometry_partition (hlen : input.length < 2 ^ 63) (h : Obj.parse cfg input = .ok r) :
    ∀ o ∈ r.objects,
      o.geometry_set.flatMap Geometry.shapes = List.range o.element_set.length ∧
      o.geometry_set ≠ [] ∧ ∀ g ∈ o.geometry_set.dropLast, g.shapes ≠ [] := by
  intro o ho
  obtain ⟨before, items, after, name, rfl, -, -⟩ := parsed_from hlen h ho
  have hm := matInv (F := F) (countsOf before) items.reverse
  rw [← foldl_built] at hm
  have e : (objMeaning (countsOf before) ⟨name, items⟩ : Object F).geometry_set =
    (items.foldl (Acc.step (countsOf before)) ({} : Acc F)).allGeometries := rfl
  have e' : (objMeaning (countsOf before) ⟨name, items⟩ : Object F).element_set =
    (items.foldl (Acc.step (countsOf before)) ({} : Acc F)).elements := rfl
  rw [e, e']
  refine ⟨?_, by simp [Acc.allGeometries], ?_⟩
  · simpa [Acc.allGeometries] using hm.partition
  · simpa [Acc.allGeometries] using hm.nonempty

example : (sampleResult.objects.map fun o => o.geometry_set.map Geometry.shapes) =
    [[[0, 1, 2, 3, 4, 5]], [[0], [1, 2]]] := by decide +kernel

/-- The last geometry can be empty. -/
example : (match Obj.parse debug b!"v 0 0 0\np 1\nusemtl red\n" with
    | .ok r => (r.objects.map fun o : Object Bytes => o.geometry_set)
    | _ => []) = [[⟨none, [0]⟩, ⟨some b!"red", []⟩]] := by decide +kernel

theorem flatMap_unique {α β : Type} {f : α → List β} {l : List α} (hn : (l.flatMap f).Nodup)
    {a b : Nat} {x y : α} {i : β} (h1 : l[a]? = some x) (h2 : l[b]? = some y) (hx : i ∈ f x)
    (hy : i ∈ f y) : a = b := by
  induction l generalizing a b with
  | nil => simp at h1
  | cons z l ih =>
    rw [List.flatMap_cons, List.nodup_append] at hn
    obtain ⟨-, hn2, hn3⟩ := hn
    cases a with
    | zero =>
      cases b with
      | zero => rfl
      | succ b =>
        simp only [List.getElem?_cons_zero, Option.some.injEq, List.getElem?_cons_succ] at h1 h2
        subst h1
        exact absurd rfl (hn3 i hx i (List.mem_flatMap.mpr ⟨y, List.mem_of_getElem? h2, hy⟩))
    | succ a =>
      cases b with
      | zero =>
        simp only [List.getElem?_cons_zero, Option.some.injEq, List.getElem?_cons_succ] at h1 h2
        subst h2
        exact absurd rfl (hn3 i hy i (List.mem_flatMap.mpr ⟨x, List.mem_of_getElem? h1, hx⟩))
      | succ b =>
        simp only [List.getElem?_cons_succ] at h1 h2
        rw [ih hn2 h1 h2]

/-! ## C15, C16, C17

`file` is the sequence of statements of the input (C27), `pre` the statements of the object
before the element statement `it`, `i` the number of one of the elements of `it`. -/

section
variable (hlen : input.length < 2 ^ 63) {file : FileAst} (hf : FileOk cfg (tokens input) file)
  (h : Obj.parse cfg input = .ok r) {j : Nat} {ast : ObjAst} (ha : file.objects[j]? = some ast)
  {pre post : List Item} {it : Item} (hi : ast.items = pre ++ it :: post) (he : it.isElement = true)
include hlen hf h ha hi he

/-- **C15** (exact) Each element is assigned the groups in force at its statement. -/
theorem C15_groups_exact {i : Nat} (h1 : sizes pre ≤ i) (h2 : i < sizes pre + it.size) :
    ∃ o, r.objects[j]? = some o ∧ ∃ e, o.shape_set[i]? = some e ∧
      e.groups.map (fun g => o.group_set[g]?.map Group.name) =
        (groupsInForce pre.reverse).map some := by
  refine ⟨_, (parsed_object hlen hf h ha).1, ?_⟩
  obtain ⟨name, items⟩ := ast
  dsimp only at hi
  subst hi
  obtain ⟨e, g1, -, g2, -, -⟩ := attribution (F := F) (countsBefore file.objects j) he name
    (post := post) h1 h2
  exact ⟨e, g1, g2⟩

/-- **C15** (for objects all of whose `g` statements have names) Each element is assigned
the groups of the most recent `g` statement before it in its object, or `default`. -/
theorem C15_groups_partial (hg : Item.g [] ∉ pre) {i : Nat} (h1 : sizes pre ≤ i)
    (h2 : i < sizes pre + it.size) :
    ∃ o, r.objects[j]? = some o ∧ ∃ e, o.shape_set[i]? = some e ∧
      e.groups.map (fun g => o.group_set[g]?.map Group.name) =
        ((((pre.filterMap fun | .g names => some names | _ => none).getLast?).getD
          [b!"default"]).map some) := by
  obtain ⟨o, ho, e, h3, h4⟩ := C15_groups_exact hlen hf h ha hi he h1 h2
  refine ⟨o, ho, e, h3, ?_⟩
  rw [h4]
  congr 1
  clear h1 h2 h3 h4 hi ha
  have key : ∀ rev : List Item, Item.g [] ∉ rev → groupsInForce rev =
      (((rev.filterMap fun | .g names => some names | _ => none).head?).getD [b!"default"]) := by
    intro rev hrev
    induction rev with
    | nil => rfl
    | cons x rev ih =>
      simp only [List.mem_cons, not_or] at hrev
      cases x with
      | g names =>
        rw [groupsInForce, if_neg (fun hc => hrev.1 (by rw [hc.1]))]
        simp
      | _ => simpa [groupsInForce, List.filterMap_cons] using ih hrev.2
  rw [key pre.reverse (by simpa using hg), List.filterMap_reverse, List.head?_reverse]

/-- **C16** Each element is assigned the smoothing group of the most recent `s` statement
before it in its object, or 0. -/
theorem C16_smoothing {i : Nat} (h1 : sizes pre ≤ i) (h2 : i < sizes pre + it.size) :
    ∃ o, r.objects[j]? = some o ∧ ∃ e, o.shape_set[i]? = some e ∧
      o.smoothing_group_set[e.smoothing_group]? =
        some ⟨((pre.filterMap fun | .s n => some n | _ => none).getLast?).getD 0⟩ := by
  refine ⟨_, (parsed_object hlen hf h ha).1, ?_⟩
  obtain ⟨name, items⟩ := ast
  dsimp only at hi
  subst hi
  obtain ⟨e, g1, -, -, g2, -⟩ := attribution (F := F) (countsBefore file.objects j) he name
    (post := post) h1 h2
  refine ⟨e, g1, g2.trans ?_⟩
  have key : ∀ rev : List Item, smoothingInForce rev =
      (((rev.filterMap fun | .s n => some n | _ => none).head?).getD 0) := by
    intro rev
    induction rev with
    | nil => rfl
    | cons x rev ih => cases x <;> simp_all [smoothingInForce]
  rw [key, List.filterMap_reverse, List.head?_reverse]

/-- **C17** Each element belongs to exactly one geometry, and its material is that of the
most recent `usemtl` statement before it in its object, if there is one. -/
theorem C17_material {i : Nat} (h1 : sizes pre ≤ i) (h2 : i < sizes pre + it.size) :
    ∃ o, r.objects[j]? = some o ∧ ∃ (k : Nat) (g : Geometry), o.geometry_set[k]? = some g ∧
      i ∈ g.shapes ∧
      g.material_name = (pre.filterMap fun | .usemtl name => some name | _ => none).getLast? ∧
      ∀ (k' : Nat) (g' : Geometry), o.geometry_set[k']? = some g' → i ∈ g'.shapes → k' = k := by
  have ho := (parsed_object hlen hf h ha).1
  refine ⟨_, ho, ?_⟩
  have hpart := (C14_geometry_partition hlen h _ (List.mem_of_getElem? ho)).1
  obtain ⟨name, items⟩ := ast
  dsimp only at hi
  subst hi
  obtain ⟨e, -, -, -, -, g, g1, g2, g3⟩ := attribution (F := F) (countsBefore file.objects j) he name
    (post := post) h1 h2
  obtain ⟨k, hk, hkg⟩ := List.mem_iff_getElem.mp g1
  have hk' := List.getElem?_eq_getElem hk
  rw [hkg] at hk'
  refine ⟨k, g, hk', g2, g3.trans ?_, fun k' g' h1 h2 => flatMap_unique (by rw [hpart]; exact List.nodup_range) h1 hk' h2 g2⟩
  have key : ∀ rev : List Item, materialInForce rev =
      ((rev.filterMap fun | .usemtl name => some name | _ => none).head?) := by
    intro rev
    induction rev with
    | nil => rfl
    | cons x rev ih => cases x <;> simp_all [materialInForce]
  rw [key, List.filterMap_reverse, List.head?_reverse]

end

/-- **C15** (as stated, refuted) An element after a `g` without names is assigned no group
at all, although no group has been named yet. -/
theorem C15_refuted : ∃ (input : Bytes) (r : ObjectSet Bytes), Obj.parse debug input = .ok r ∧
    b!"g" ∈ tokens input ∧ (∀ o ∈ r.objects, o.group_set = [⟨b!"default"⟩]) ∧
    ∃ o ∈ r.objects, ∃ e ∈ o.shape_set, e.groups = [] := by
  refine ⟨b!"v 0 0 0\np 1\ng\np 1\n", ⟨[], [{
    name := []
    vertex_set := [⟨b!"0", b!"0", b!"0", b!"1"⟩]
    texture_vertex_set := []
    normal_vertex_set := []
    group_set := [⟨b!"default"⟩]
    smoothing_group_set := [⟨0⟩]
    element_set := [.Point (.V 0), .Point (.V 0)]
    shape_set := [⟨0, [0], 0⟩, ⟨1, [], 0⟩]
    geometry_set := [⟨none, [0, 1]⟩] }]⟩, ?_⟩
  decide +kernel

/-- A statement list for which the hypotheses of C15–C17 hold. -/
example : ∃ file, FileOk debug (tokens b!"v 0 0 0\ng a b\ns 3\nusemtl m\np 1\n") file ∧
    ∃ ast, file.objects[0]? = some ast ∧
      ast.items = [.v b!"0" b!"0" b!"0" none, .g [b!"a", b!"b"], .s 3, .usemtl b!"m"] ++ .p [1] :: [] := by
  have e : tokens b!"v 0 0 0\ng a b\ns 3\nusemtl m\np 1\n" =
      [b!"v", b!"0", b!"0", b!"0", nl, b!"g", b!"a", b!"b", nl, b!"s", b!"3", nl, b!"usemtl", b!"m", nl,
        b!"p", b!"1", nl] := by decide +kernel
  rw [e]
  refine ⟨⟨[], [⟨[], _⟩]⟩, ⟨_, .done (by decide) (by decide), .obj (.implicit (by decide))
    (.stmt (.v3 (by decide) (by decide) (by decide) (by intro t ht; cases ht; decide)) (.blank
      (.stmt (.g (names := [b!"a", b!"b"]) (by decide) (.inl rfl)) (.stmt (.s (.inr ⟨by decide, by decide⟩)) (.blank
        (.stmt .usemtl (.blank (.stmt (.p (ts := [b!"1"]) (is := [1]) (by decide)
          (.cons ⟨by decide, by decide, by decide⟩ .nil) (.inl rfl)) (.done (.inl rfl)))))))))) ?_ .done⟩,
    _, rfl, rfl⟩
  intro hb
  have := hb (.p [1]) (by simp)
  simp [Item.isElement] at this

/-! ## C18 -/

section
variable (hlen : input.length < 2 ^ 63) {file : FileAst} (hf : FileOk cfg (tokens input) file)
  (h : Obj.parse cfg input = .ok r) {j : Nat} {ast : ObjAst} (ha : file.objects[j]? = some ast)
include hlen hf h ha

/-- **C18** The vertex data of an object are the values of its `v`, `vt`, `vn` statements in
order, with 1 for an omitted `w` of a `v` and 0 for omitted coordinates of a `vt`. -/
theorem C18_vertex_data : ∃ o, r.objects[j]? = some o ∧
    o.vertex_set = (ast.items.filterMap fun
      | .v x y z (some w) => some ⟨FloatSem.value x, FloatSem.value y, FloatSem.value z, FloatSem.value w⟩
      | .v x y z none => some ⟨FloatSem.value x, FloatSem.value y, FloatSem.value z, FloatSem.one⟩
      | _ => none) ∧
    o.texture_vertex_set = (ast.items.filterMap fun
      | .vt a (some b) (some c) => some ⟨FloatSem.value a, FloatSem.value b, FloatSem.value c⟩
      | .vt a (some b) none => some ⟨FloatSem.value a, FloatSem.value b, FloatSem.zero⟩
      | .vt a none (some c) => some ⟨FloatSem.value a, FloatSem.zero, FloatSem.value c⟩
      | .vt a none none => some ⟨FloatSem.value a, FloatSem.zero, FloatSem.zero⟩
      | _ => none) ∧
    o.normal_vertex_set = (ast.items.filterMap fun
      | .vn x y z => some ⟨FloatSem.value x, FloatSem.value y, FloatSem.value z⟩
      | _ => none) := by
  have hd := data_of (F := F) (countsBefore file.objects j) ast.items
  refine ⟨_, (parsed_object hlen hf h ha).1, hd.vertices.trans ?_, hd.textures.trans ?_,
    hd.normals.trans ?_⟩
  · congr 1; funext x; cases x with
    | v x y z w => cases w <;> rfl
    | _ => rfl
  · congr 1; funext x; cases x with
    | vt u v w => cases v <;> cases w <;> rfl
    | _ => rfl
  · rfl

/-! ## C20 -/

/-- **C20** The elements of an object are those of its statements, in order: `n` points for
a `p` with `n` indices, `n - 1` segments for an `l`, `n - 2` triangles for an `f`. -/
theorem C20_elements : ∃ o, r.objects[j]? = some o ∧
    o.element_set = ast.items.flatMap (Item.elements (countsBefore file.objects j)) ∧
    ∀ it ∈ ast.items, (it.elements (countsBefore file.objects j)).length =
      (match it with
        | .p is => is.length
        | .l refs => refs.length - 1
        | .f refs => refs.length - 2
        | _ => 0) := by
  have hd := data_of (F := F) (countsBefore file.objects j) ast.items
  refine ⟨_, (parsed_object hlen hf h ha).1, hd.elements, fun it _ => ?_⟩
  rw [elements_length]
  cases it <;> rfl

/-! ## C19 -/

/-- **C19** Looking the indices of the stored elements up in their object gives what the
written references denote: a written index `k` is the `k`-th `v` (`vt`, `vn`) statement of
the whole file. -/
theorem C19_indices_denote : ∃ o, r.objects[j]? = some o ∧
    let all := file.objects.flatMap ObjAst.items
    o.element_set.map (lookup o) = ast.items.flatMap (Item.drawn
      (Ref.data (all.filterMap Item.vertex?) (all.filterMap Item.texture?) (all.filterMap Item.normal?))) ∧
    none ∉ o.element_set.map (lookup o) := by
  obtain ⟨h1, hv⟩ := parsed_object hlen hf h ha
  refine ⟨_, h1, ?_⟩
  intro all
  have hd := data_of (F := F) (countsBefore file.objects j) ast.items
  have hall : all = (file.objects.take j).flatMap ObjAst.items ++
      (ast.items ++ (file.objects.drop (j + 1)).flatMap ObjAst.items) := by
    obtain ⟨hj, hje⟩ := List.getElem?_eq_some_iff.mp ha
    have e : file.objects = file.objects.take j ++ file.objects[j] :: file.objects.drop (j + 1) := by simp
    show file.objects.flatMap ObjAst.items = _
    conv => lhs; rw [e]
    rw [List.flatMap_append, List.flatMap_cons, hje]
  have key : ∀ it ∈ ast.items, ∀ ref ∈ it.refs,
      (objMeaning (countsBefore file.objects j) ast : Object F).get_vtn_triple
        (ref.resolve (countsBefore file.objects j)) =
      Ref.data (all.filterMap Item.vertex?) (all.filterMap Item.texture?) (all.filterMap Item.normal?) ref := by
    intro it hit ref hr
    rw [hall]
    exact (resolve_data _ ast.items _ ast.name (items_refs_valid hv it hit ref hr)).1
  constructor
  · have he : (objMeaning (countsBefore file.objects j) ast : Object F).element_set =
      ast.items.flatMap (Item.elements (countsBefore file.objects j)) := hd.elements
    rw [he, List.map_flatMap]
    simp only [List.flatMap]
    congr 1
    exact List.map_congr_left fun it hit => drawn_elements _ _ _ it (key it hit)
  · intro hn
    obtain ⟨e, he, hne⟩ := List.mem_map.mp hn
    have hr := C10_indices_resolve hlen h _ (List.mem_of_getElem? h1) e he
    cases e with
    | Point a =>
      have := hr a (by simp [indices])
      simp only [lookup] at hne
      cases hx : (objMeaning (countsBefore file.objects j) ast : Object F).get_vtn_triple a <;> simp_all
    | Line a b =>
      have h1 := hr a (by simp [indices])
      have h2 := hr b (by simp [indices])
      rw [Option.isSome_iff_exists] at h1 h2
      obtain ⟨x, h1⟩ := h1
      obtain ⟨y, h2⟩ := h2
      simp [lookup, h1, h2] at hne
    | Face a b c =>
      have h1 := hr a (by simp [indices])
      have h2 := hr b (by simp [indices])
      have h3 := hr c (by simp [indices])
      rw [Option.isSome_iff_exists] at h1 h2 h3
      obtain ⟨x, h1⟩ := h1
      obtain ⟨y, h2⟩ := h2
      obtain ⟨z, h3⟩ := h3
      simp [lookup, h1, h2, h3] at hne

end

example : ∃ file j ast, FileOk debug (tokens sample) file ∧ Obj.parse debug sample = .ok sampleResult ∧
    file.objects[j]? = some ast ∧ j = 1 := by
  obtain ⟨file, hf, hr⟩ := sample_file
  have hl : file.objects.length = 2 := by
    have := congrArg (fun r => r.objects.length) hr
    simp only [meaning, objectsMeaning_length] at this
    rw [← this]
    decide +kernel
  exact ⟨file, 1, file.objects[1], hf, sample_parses, List.getElem?_eq_getElem (by omega), rfl⟩

/-- **C20** The `k`-th triangle of a face and the `k`-th segment of a line. -/
theorem C20_fan_and_segments (lo : Counts) (refs : List Ref) (k : Nat) :
    (∀ (h : k + 2 < refs.length), (Item.elements lo (.f refs))[k]? =
      some (.Face ((refs[0]).resolve lo) ((refs[k + 1]).resolve lo) ((refs[k + 2]).resolve lo))) ∧
    (∀ (h : k + 1 < refs.length), (Item.elements lo (.l refs))[k]? =
      some (.Line ((refs[k]).resolve lo) ((refs[k + 1]).resolve lo))) := by
  constructor
  · intro h
    cases refs with
    | nil => simp at h
    | cons z refs =>
      simp only [List.length_cons] at h
      simp only [Item.elements, fan, List.map_cons]
      rw [List.getElem?_zipWith, List.getElem?_tail, List.getElem?_map, List.getElem?_map,
        List.getElem?_eq_getElem (by omega), List.getElem?_eq_getElem (by omega)]
      simp
  · intro h
    simp only [Item.elements, segments]
    rw [List.getElem?_zipWith, List.getElem?_tail, List.getElem?_map, List.getElem?_map,
      List.getElem?_eq_getElem (by omega), List.getElem?_eq_getElem (by omega)]
    simp

example : (Item.elements {} (.f [⟨1, none, none⟩, ⟨2, none, none⟩, ⟨3, none, none⟩, ⟨4, none, none⟩])) =
    [.Face (.V 0) (.V 1) (.V 2), .Face (.V 0) (.V 2) (.V 3)] := by decide +kernel

end Verif.Props
