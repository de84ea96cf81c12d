import Verif.Props.Exact
import Verif.Props.Relocate

/-!
# What an object shows

A program that draws an object goes through its shape entries, looks up the element, its vertices,
the names of its groups, its smoothing group and its material. `scene` is the result of doing so.
-/

namespace Verif.Spec.Obj

open Verif Verif.Obj

section
variable {F : Type}

/-- An element with all it refers to. -/
structure Shown (F : Type) where
  element : ElementData F
  groups : List Bytes
  smoothing : Nat
  material : Option Bytes
deriving DecidableEq, Repr

/-- Following a list of positions; nothing if one is out of bounds. -/
def follow {α : Type} (l : List α) : List Nat → Option (List α)
  | [] => some []
  | i :: is =>
    match l[i]?, follow l is with
    | some a, some as => some (a :: as)
    | _, _ => none

/-- Everything a shape entry refers to, looked up in the tables of its object. -/
def showEntry (o : Object F) (e : ShapeEntry) : Option (Shown F) :=
  match o.element_set[e.element]?.bind (lookup o), follow o.group_set e.groups,
    o.smoothing_group_set[e.smoothing_group]?, o.geometry_set.find? (fun g => g.shapes.contains e.element) with
  | some x, some gs, some s, some geo => some ⟨x, gs.map Group.name, s.number, geo.material_name⟩
  | _, _, _, _ => none

/-- What the object shows. -/
def scene (o : Object F) : List (Option (Shown F)) := o.shape_set.map (showEntry o)

/-- What statements show, given the data of references; `earlier` are the statements of the object
before, the most recent first. -/
def itemsScene (data : Ref → Option (VTNTriple F)) : List Item → List Item → List (Option (Shown F))
  | _, [] => []
  | earlier, it :: items =>
    (it.drawn data).map (fun x => x.map fun x =>
      ⟨x, groupsInForce earlier, smoothingInForce earlier, materialInForce earlier⟩) ++
    itemsScene data (it :: earlier) items

variable [FloatSem F]

/-- The data of a reference: written numbers count the statements of the whole file. -/
def FileAst.data (file : FileAst) (r : Ref) : Option (VTNTriple F) :=
  let all := file.objects.flatMap ObjAst.items
  r.data (all.filterMap Item.vertex?) (all.filterMap Item.texture?) (all.filterMap Item.normal?)

end

/-! ## Renumbering -/

/-- New numbers of the vertices, the texture vertices and the normals. -/
structure Renum where
  v : Nat → Nat
  vt : Nat → Nat
  vn : Nat → Nat

def Ref.renum (ρ : Renum) (r : Ref) : Ref := ⟨ρ.v r.v, r.vt.map ρ.vt, r.vn.map ρ.vn⟩

def Item.renum (ρ : Renum) : Item → Item
  | .p is => .p (is.map ρ.v)
  | .l refs => .l (refs.map (Ref.renum ρ))
  | .f refs => .f (refs.map (Ref.renum ρ))
  | it => it

/-- A `v`, `vt` or `vn` statement. -/
def Item.isData : Item → Bool
  | .v .. => true
  | .vt .. => true
  | .vn .. => true
  | _ => false

/-- The numbers after `n` raised by `c`: the numbering when `c` are inserted after the first `n`. -/
def raise (n c k : Nat) : Nat := if k ≤ n then k else k + c

def Renum.raise (n c : Counts) : Renum :=
  ⟨Obj.raise n.v c.v, Obj.raise n.vt c.vt, Obj.raise n.vn c.vn⟩

/-- The file with objects `os₁`, then one named `name` with statements `a`, `x`, `b`, then `os₂`,
where `x` is new and the references of the others are adjusted. -/
def insertData (libs : List Bytes) (os₁ : List ObjAst) (name : Bytes) (a b : List Item) (os₂ : List ObjAst)
    (x : Item) : FileAst :=
  let ρ := Renum.raise (countsOf (os₁.flatMap ObjAst.items ++ a)) x.counts
  let re := fun o : ObjAst => (⟨o.name, o.items.map (Item.renum ρ)⟩ : ObjAst)
  ⟨libs, os₁.map re ++ ⟨name, a.map (Item.renum ρ) ++ x :: b.map (Item.renum ρ)⟩ :: os₂.map re⟩

end Verif.Spec.Obj

namespace Verif.Props

open Verif Verif.Spec Verif.Spec.Obj Verif.Obj

variable {F : Type} {cfg : Cfg}

/-! ## The scene of a parsed object -/

theorem follow_eq {α : Type} {l : List α} {β : Type} {f : α → β} : ∀ {is : List Nat} {ys : List β},
    is.map (fun i => l[i]?.map f) = ys.map some → ∃ xs, follow l is = some xs ∧ xs.map f = ys
  | [], ys, h => by
    cases ys with
    | nil => exact ⟨[], rfl, rfl⟩
    | cons y ys => simp at h
  | i :: is, ys, h => by
    cases ys with
    | nil => simp at h
    | cons y ys =>
      simp only [List.map_cons, List.cons.injEq] at h
      obtain ⟨h1, h2⟩ := h
      obtain ⟨xs, h3, rfl⟩ := follow_eq h2
      cases hx : l[i]? with
      | none => simp [hx] at h1
      | some x =>
        simp only [hx, Option.map_some, Option.some.injEq] at h1
        exact ⟨x :: xs, by simp [follow, hx, h3], by simp [h1]⟩

theorem drawn_length (data : Ref → Option (VTNTriple F)) (it : Item) : (it.drawn data).length = it.size := by
  cases it with
  | f refs => cases refs <;> simp [Item.drawn, Item.size]
  | _ => simp [Item.drawn, Item.size]

theorem itemsScene_length (data : Ref → Option (VTNTriple F)) (earlier items : List Item) :
    (itemsScene data earlier items).length = sizes items := by
  induction items generalizing earlier with
  | nil => rfl
  | cons it items ih => simp [itemsScene, ih, drawn_length, sizes]

theorem itemsScene_append (data : Ref → Option (VTNTriple F)) (earlier a b : List Item) :
    itemsScene data earlier (a ++ b) = itemsScene data earlier a ++ itemsScene data (a.reverse ++ earlier) b := by
  induction a generalizing earlier with
  | nil => rfl
  | cons it a ih => simp [itemsScene, ih]

theorem flatMap_drawn_length (data : Ref → Option (VTNTriple F)) (items : List Item) :
    (items.flatMap (Item.drawn data)).length = sizes items := by
  induction items with
  | nil => rfl
  | cons it items ih => simp [List.flatMap_cons, ih, drawn_length, sizes]

variable [FloatSem F]

section
variable {input : Bytes} {r : ObjectSet F}

/-- **C88.** What a parsed object shows is what its statements say, one after the other: the elements
of each statement, with the data of the `v`, `vt` and `vn` statements that its numbers count in the
file, and the groups, the smoothing group and the material in force there. Nothing is out of bounds. -/
theorem C88_scene (hlen : input.length < 2 ^ 63) {file : FileAst} (hf : FileOk cfg (tokens input) file)
    (h : Obj.parse cfg input = .ok r) {j : Nat} {ast : ObjAst} (ha : file.objects[j]? = some ast) :
    ∃ o, r.objects[j]? = some o ∧ scene o = itemsScene file.data [] ast.items ∧ none ∉ scene o := by
  obtain ⟨o, ho, hc19, hn⟩ := C19_indices_denote hlen hf h ha
  have hmem := List.mem_of_getElem? ho
  have hshape := C12_shape_entries hlen h o hmem
  have hpart := (C14_geometry_partition hlen h o hmem).1
  have hmean := (parsed_object hlen hf h ha).1
  rw [ho, Option.some.injEq] at hmean
  have hcount : o.element_set.length = sizes ast.items := by rw [hmean, element_set_length]
  change o.element_set.map (lookup o) = ast.items.flatMap (Item.drawn file.data) at hc19
  have key : ∀ i < sizes ast.items, ∃ y, (scene o)[i]? = some (some y) ∧
      (itemsScene file.data [] ast.items)[i]? = some (some y) := by
    intro i hi
    obtain ⟨pre, it, post, hsplit, hel, h1, h2⟩ := find_statement hi
    obtain ⟨e, g1, g2, g3, g4, geo, g5, g6, g7⟩ :=
      attribution (F := F) (countsBefore file.objects j) hel ast.name (post := post) h1 h2
    have hast : (⟨ast.name, pre ++ it :: post⟩ : ObjAst) = ast := by rw [← hsplit]
    rw [hast, ← hmean] at g1 g3 g4 g5
    -- the element
    have hd : (o.element_set.map (lookup o))[i]? = (it.drawn (file.data (F := F)))[i - sizes pre]? := by
      rw [hc19, hsplit, List.flatMap_append, List.flatMap_cons,
        List.getElem?_append_right (by rw [flatMap_drawn_length]; omega), flatMap_drawn_length,
        List.getElem?_append_left (by rw [drawn_length]; omega)]
    have hie : i < o.element_set.length := by omega
    obtain ⟨x, hx⟩ : ∃ x, lookup o o.element_set[i] = some x := by
      cases hx : lookup o o.element_set[i] with
      | some x => exact ⟨x, rfl⟩
      | none => exact absurd (List.mem_map.mpr ⟨_, List.getElem_mem hie, hx⟩) hn
    rw [List.getElem?_map, List.getElem?_eq_getElem hie, Option.map_some, hx] at hd
    -- the groups
    obtain ⟨gs, f1, f2⟩ := follow_eq (f := Group.name) (is := e.groups) (l := o.group_set) g3
    -- the material
    obtain ⟨geo', f3, f4⟩ : ∃ geo', o.geometry_set.find? (fun g => g.shapes.contains i) = some geo' ∧
        geo'.material_name = materialInForce pre.reverse := by
      cases hf : o.geometry_set.find? (fun g => g.shapes.contains i) with
      | none =>
        have := List.find?_eq_none.mp hf geo g5
        simp [g6] at this
      | some geo' =>
        refine ⟨geo', rfl, ?_⟩
        have m1 := List.mem_of_find?_eq_some hf
        have m2 := List.find?_some hf
        simp only [List.contains_iff_mem] at m2
        obtain ⟨k1, hk1, e1⟩ := List.mem_iff_getElem.mp m1
        obtain ⟨k2, hk2, e2⟩ := List.mem_iff_getElem.mp g5
        have := flatMap_unique (f := Geometry.shapes) (l := o.geometry_set) (by rw [hpart]; exact List.nodup_range)
          (List.getElem?_eq_getElem hk1) (List.getElem?_eq_getElem hk2) (by rw [e1]; exact m2) (by rw [e2]; exact g6)
        subst this
        rw [← g7, ← e1, ← e2]
    refine ⟨⟨x, groupsInForce pre.reverse, smoothingInForce pre.reverse, materialInForce pre.reverse⟩, ?_, ?_⟩
    · simp only [scene, List.getElem?_map, g1, Option.map_some, showEntry, g2, f1, g4, f3,
        List.getElem?_eq_getElem hie, Option.bind_some, hx, f2, f4]
    · rw [hsplit, itemsScene_append, List.getElem?_append_right (by rw [itemsScene_length]; omega),
        itemsScene_length, itemsScene, List.getElem?_append_left (by rw [List.length_map, drawn_length]; omega),
        List.getElem?_map, ← hd]
      simp
  have hsc : (scene o).length = sizes ast.items := by
    rw [scene, List.length_map, hshape.1, hcount]
  refine ⟨o, ho, List.ext_getElem? fun i => ?_, fun hm => ?_⟩
  · by_cases hi : i < sizes ast.items
    · obtain ⟨y, h1, h2⟩ := key i hi
      rw [h1, h2]
    · rw [List.getElem?_eq_none (by omega), List.getElem?_eq_none (by rw [itemsScene_length]; omega)]
  · obtain ⟨i, hi, hie⟩ := List.mem_iff_getElem.mp hm
    obtain ⟨y, h1, -⟩ := key i (by omega)
    rw [List.getElem?_eq_getElem hi, hie] at h1
    cases h1

end

/-! ## Renumbering -/

theorem inForce_data {earlier earlier' : List Item} (ρ : Renum)
    (h : (earlier.filter (! Item.isData ·)).map (Item.renum ρ) = earlier'.filter (! Item.isData ·)) :
    groupsInForce earlier' = groupsInForce earlier ∧ smoothingInForce earlier' = smoothingInForce earlier ∧
      materialInForce earlier' = materialInForce earlier := by
  have h1 : ∀ l : List Item, groupsInForce (l.filter (! Item.isData ·)) = groupsInForce l ∧
      smoothingInForce (l.filter (! Item.isData ·)) = smoothingInForce l ∧
      materialInForce (l.filter (! Item.isData ·)) = materialInForce l ∧
      ((∀ it ∈ l.filter (! Item.isData ·), it.isElement = false ∧ it.names = []) ↔
        ∀ it ∈ l, it.isElement = false ∧ it.names = []) := by
    intro l
    induction l with
    | nil => exact ⟨rfl, rfl, rfl, Iff.rfl⟩
    | cons it l ih =>
      obtain ⟨i1, i2, i3, i4⟩ := ih
      cases hd : it.isData with
      | true =>
        rw [List.filter_cons_of_neg (by simp [hd])]
        cases it <;> simp_all [Item.isData, groupsInForce, smoothingInForce, materialInForce, Item.isElement, Item.names]
      | false =>
        rw [List.filter_cons_of_pos (by simp [hd]), List.forall_mem_cons, List.forall_mem_cons, i4]
        cases it with
        | g names => simp only [groupsInForce, smoothingInForce, materialInForce, i4, i2, i3]; simp
        | _ => simp [groupsInForce, smoothingInForce, materialInForce, i1, i2, i3]
  have h2 : ∀ l : List Item, groupsInForce (l.map (Item.renum ρ)) = groupsInForce l ∧
      smoothingInForce (l.map (Item.renum ρ)) = smoothingInForce l ∧
      materialInForce (l.map (Item.renum ρ)) = materialInForce l ∧
      ((∀ it ∈ l.map (Item.renum ρ), it.isElement = false ∧ it.names = []) ↔
        ∀ it ∈ l, it.isElement = false ∧ it.names = []) := by
    intro l
    induction l with
    | nil => exact ⟨rfl, rfl, rfl, Iff.rfl⟩
    | cons it l ih =>
      obtain ⟨i1, i2, i3, i4⟩ := ih
      rw [List.map_cons]
      simp only [List.forall_mem_cons]
      rw [i4]
      cases it with
      | g names => simp only [Item.renum, groupsInForce, smoothingInForce, materialInForce, i4, i2, i3]; simp
      | _ => simp [Item.renum, groupsInForce, smoothingInForce, materialInForce, Item.isElement, Item.names, i1, i2, i3]
  obtain ⟨a1, a2, a3, -⟩ := h1 earlier
  obtain ⟨b1, b2, b3, -⟩ := h1 earlier'
  obtain ⟨c1, c2, c3, -⟩ := h2 (earlier.filter (! Item.isData ·))
  rw [h] at c1 c2 c3
  exact ⟨by rw [← b1, c1, a1], by rw [← b2, c2, a2], by rw [← b3, c3, a3]⟩

omit [FloatSem F] in
theorem drawn_data {data : Ref → Option (VTNTriple F)} {it : Item} (h : it.isData = true) : it.drawn data = [] := by
  cases it <;> simp_all [Item.isData, Item.drawn]

omit [FloatSem F] in
theorem drawn_renum (ρ : Renum) {data data' : Ref → Option (VTNTriple F)} (it : Item)
    (h : ∀ r ∈ it.refs, data' (r.renum ρ) = data r) : (it.renum ρ).drawn data' = it.drawn data := by
  cases it with
  | p is =>
    simp only [Item.renum, Item.drawn, List.map_map]
    refine List.map_congr_left fun k hk => ?_
    have := h ⟨k, none, none⟩ (by simpa [Item.refs] using hk)
    simp only [Ref.renum, Option.map_none] at this
    simp [this]
  | l refs =>
    simp only [Item.renum, Item.drawn]
    rw [zipWith_map']
    refine zipWith_congr fun a ha b hb => ?_
    rw [h a ha, h b (List.mem_of_mem_tail hb)]
  | f refs =>
    cases refs with
    | nil => rfl
    | cons z refs =>
      simp only [Item.renum, Item.drawn, List.map_cons]
      rw [zipWith_map']
      refine zipWith_congr fun a ha b hb => ?_
      rw [h a (by simp [Item.refs, ha]), h b (by simp [Item.refs, List.mem_of_mem_tail hb]),
        h z (by simp [Item.refs])]
  | _ => rfl

omit [FloatSem F] in
/-- Only statements that are not data count, and renumbering is not seen. -/
theorem itemsScene_filter (data : Ref → Option (VTNTriple F)) (earlier items : List Item) :
    itemsScene data earlier items =
      itemsScene data (earlier.filter (! Item.isData ·)) (items.filter (! Item.isData ·)) := by
  induction items generalizing earlier with
  | nil => rfl
  | cons it items ih =>
    rw [itemsScene, ih]
    obtain ⟨k1, k2, k3⟩ := inForce_data (earlier := earlier) (earlier' := earlier.filter (! Item.isData ·))
      ⟨id, id, id⟩ (by
        have : ∀ l : List Item, l.map (Item.renum ⟨id, id, id⟩) = l := by
          intro l
          refine (List.map_congr_left fun it _ => ?_).trans (List.map_id' l)
          cases it <;> simp [Item.renum] <;> exact (List.map_congr_left fun r _ => by
            simp [Ref.renum]).trans (List.map_id' _)
        rw [this, List.filter_filter]
        simp)
    cases hd : it.isData with
    | true => simp [hd, drawn_data]
    | false => simp [hd, itemsScene, k1, k2, k3]

omit [FloatSem F] in
theorem itemsScene_renum (ρ : Renum) {data data' : Ref → Option (VTNTriple F)} (earlier items : List Item)
    (h : ∀ it ∈ items, ∀ r ∈ it.refs, data' (r.renum ρ) = data r) :
    itemsScene data' (earlier.map (Item.renum ρ)) (items.map (Item.renum ρ)) = itemsScene data earlier items := by
  induction items generalizing earlier with
  | nil => rfl
  | cons it items ih =>
    have k := inForce_data (earlier := earlier) (earlier' := earlier.map (Item.renum ρ)) ρ (by
      have : (fun it : Item => ! (it.renum ρ).isData) = (fun it : Item => ! it.isData) := by
        funext it; cases it <;> rfl
      rw [List.filter_map, Function.comp_def, this])
    rw [List.map_cons, itemsScene, itemsScene, ← List.map_cons, ih (it :: earlier) fun i hi => h i (by simp [hi]),
      drawn_renum ρ it (h it (by simp)), k.1, k.2.1, k.2.2]

section
variable {input input' : Bytes} {r r' : ObjectSet F}

/-- **C88.** The numbering does not matter: two objects, of the same or of different files, whose
statements apart from `v`, `vt`, `vn` are the same up to new numbers, and whose numbers count equal
data, show the same. -/
theorem C88_renumber (hlen : input.length < 2 ^ 63) (hlen' : input'.length < 2 ^ 63) {file file' : FileAst}
    (hf : FileOk cfg (tokens input) file) (hf' : FileOk cfg (tokens input') file')
    (h : Obj.parse cfg input = .ok r) (h' : Obj.parse cfg input' = .ok r') {j j' : Nat} {ast ast' : ObjAst}
    (ha : file.objects[j]? = some ast) (ha' : file'.objects[j']? = some ast') (ρ : Renum)
    (hs : ast'.items.filter (! Item.isData ·) = (ast.items.filter (! Item.isData ·)).map (Item.renum ρ))
    (hd : ∀ it ∈ ast.items, ∀ ref ∈ it.refs, file'.data (F := F) (ref.renum ρ) = file.data ref) :
    ∃ o o', r.objects[j]? = some o ∧ r'.objects[j']? = some o' ∧ scene o' = scene o := by
  obtain ⟨o, h1, h2, -⟩ := C88_scene hlen hf h ha
  obtain ⟨o', h1', h2', -⟩ := C88_scene hlen' hf' h' ha'
  refine ⟨o, o', h1, h1', ?_⟩
  rw [h2, h2', itemsScene_filter, hs]
  have := itemsScene_renum ρ (data := file.data (F := F)) (data' := file'.data) []
    (ast.items.filter (! Item.isData ·)) fun it hit => hd it (List.mem_of_mem_filter hit)
  rw [List.map_nil] at this
  rw [List.filter_nil, this]
  exact (itemsScene_filter (file.data (F := F)) [] ast.items).symm

end

/-! ## Inserting data -/

/-- Numbers that are valid before are valid after. -/
def NumbersFit (ρ : Renum) (lo hi lo' hi' : Counts) : Prop :=
  (∀ k, lo.v < k → k ≤ hi.v → lo'.v < ρ.v k ∧ ρ.v k ≤ hi'.v) ∧
  (∀ k, lo.vt < k → k ≤ hi.vt → lo'.vt < ρ.vt k ∧ ρ.vt k ≤ hi'.vt) ∧
  (∀ k, lo.vn < k → k ≤ hi.vn → lo'.vn < ρ.vn k ∧ ρ.vn k ≤ hi'.vn)

theorem validItem_renum {ρ : Renum} {lo hi lo' hi' : Counts} (h : NumbersFit ρ lo hi lo' hi') {it : Item}
    (hv : ValidItem lo hi it) : ValidItem lo' hi' (it.renum ρ) := by
  have hr : ∀ r : Ref, ValidRef lo hi r → ValidRef lo' hi' (r.renum ρ) := by
    rintro ⟨v, vt, vn⟩ ⟨h1, h2, h3⟩
    refine ⟨h.1 v h1.1 h1.2, fun t ht => ?_, fun t ht => ?_⟩
    · simp only [Ref.renum, Option.mem_def, Option.map_eq_some_iff] at ht
      obtain ⟨k, hk, rfl⟩ := ht
      exact h.2.1 k (h2 k hk).1 (h2 k hk).2
    · simp only [Ref.renum, Option.mem_def, Option.map_eq_some_iff] at ht
      obtain ⟨k, hk, rfl⟩ := ht
      exact h.2.2 k (h3 k hk).1 (h3 k hk).2
  have hu : ∀ refs : List Ref, Uniform refs → Uniform (refs.map (Ref.renum ρ)) := by
    intro refs hu
    have hform : ∀ r : Ref, (r.renum ρ).form = r.form := by intro r; simp [Ref.form, Ref.renum]
    simp only [Uniform, List.forall_mem_map, hform]
    exact hu
  cases it with
  | p is =>
    refine ⟨by simpa using hv.1, fun k hk => ?_⟩
    obtain ⟨m, hm, rfl⟩ := List.mem_map.mp hk
    exact h.1 m (hv.2 m hm).1 (hv.2 m hm).2
  | l refs =>
    refine ⟨by simpa using hv.1, hu refs hv.2.1, ?_⟩
    simp only [List.forall_mem_map]
    exact fun r hr' => hr r (hv.2.2 r hr')
  | f refs =>
    refine ⟨by simpa using hv.1, hu refs hv.2.1, ?_⟩
    simp only [List.forall_mem_map]
    exact fun r hr' => hr r (hv.2.2 r hr')
  | _ => exact hv

theorem counts_renum (ρ : Renum) (it : Item) : (it.renum ρ).counts = it.counts := by cases it <;> rfl

theorem countsOf_renum (ρ : Renum) (items : List Item) : countsOf (items.map (Item.renum ρ)) = countsOf items := by
  simp only [countsOf, List.foldl_map, counts_renum]

theorem validItems_renum {ρ : Renum} {lo hi lo' hi' : Counts} {items : List Item}
    (h : ∀ pre, pre <+: items → NumbersFit ρ lo (hi + countsOf pre) lo' (hi' + countsOf pre))
    (hv : ValidItems lo hi items) : ValidItems lo' hi' (items.map (Item.renum ρ)) := by
  induction items generalizing hi hi' with
  | nil => trivial
  | cons it items ih =>
    refine ⟨validItem_renum (h [] (List.nil_prefix)) hv.1, ?_⟩
    rw [counts_renum]
    refine ih (fun pre hp => ?_) hv.2
    have := h (it :: pre) (List.cons_prefix_cons.mpr ⟨rfl, hp⟩)
    rwa [countsOf_cons, ← counts_add_assoc, ← counts_add_assoc] at this

theorem validItems_cut {lo hi : Counts} {a b : List Item} :
    ValidItems lo hi (a ++ b) ↔ ValidItems lo hi a ∧ ValidItems lo (hi + countsOf a) b := by
  induction a generalizing hi with
  | nil => exact ⟨fun h => ⟨trivial, h⟩, fun h => h.2⟩
  | cons it a ih =>
    rw [List.cons_append, ValidItems, ValidItems, ih, countsOf_cons, ← counts_add_assoc, and_assoc]

theorem countsOf_prefix {a b : List Item} (h : a <+: b) :
    (countsOf a).v ≤ (countsOf b).v ∧ (countsOf a).vt ≤ (countsOf b).vt ∧ (countsOf a).vn ≤ (countsOf b).vn := by
  obtain ⟨t, rfl⟩ := h
  rw [countsOf_append, counts_add]
  exact ⟨by simp, by simp, by simp⟩

/-- The statements of the objects are valid and not bare; the names do not matter. -/
def GoodObjects : Counts → List ObjAst → Prop
  | _, [] => True
  | lo, o :: os => ValidItems lo lo o.items ∧ ¬ Bare o.items ∧ GoodObjects (lo + countsOf o.items) os

theorem goodObjects_append {lo : Counts} {a b : List ObjAst} :
    GoodObjects lo (a ++ b) ↔ GoodObjects lo a ∧ GoodObjects (lo + countsAll a) b := by
  induction a generalizing lo with
  | nil => exact ⟨fun h => ⟨trivial, h⟩, fun h => h.2⟩
  | cons o a ih =>
    rw [List.cons_append, GoodObjects, GoodObjects, ih, countsAll_cons, ← counts_add_assoc, and_assoc, and_assoc]

theorem validObjects_iff {lo : Counts} {os : List ObjAst} :
    ValidObjects lo os ↔ (∀ n ∈ os.map ObjAst.name, IsToken n) ∧ GoodObjects lo os := by
  induction os generalizing lo with
  | nil => simp [ValidObjects, GoodObjects]
  | cons o os ih =>
    rw [ValidObjects, ih, GoodObjects, List.map_cons, List.forall_mem_cons]
    tauto

theorem validFile_iff {file : FileAst} : ValidFile file ↔ (∀ n ∈ file.libs, IsToken n ∧ n ≠ nl) ∧
    (∀ n ∈ (file.objects.map ObjAst.name).head?, n = [] ∨ IsToken n) ∧
    (∀ n ∈ (file.objects.map ObjAst.name).tail, IsToken n) ∧ GoodObjects {} file.objects := by
  obtain ⟨libs, objects⟩ := file
  cases objects with
  | nil => simp [ValidFile, GoodObjects]
  | cons o os =>
    simp only [ValidFile, validObjects_iff, GoodObjects, counts_zero_add, List.map_cons, List.head?_cons, List.tail_cons,
      Option.mem_def, Option.some.injEq, forall_eq']
    tauto

theorem bare_renum {ρ : Renum} {items : List Item} : Bare (items.map (Item.renum ρ)) ↔ Bare items := by
  have h1 : ∀ it : Item, (it.renum ρ).isElement = it.isElement := by intro it; cases it <;> rfl
  have h2 : ∀ it : Item, (it.renum ρ).isUsemtl = it.isUsemtl := by intro it; cases it <;> rfl
  simp only [Bare, List.forall_mem_map, h1, h2]

/-- New numbers in an object. -/
def ObjAst.renum (ρ : Renum) (o : ObjAst) : ObjAst := ⟨o.name, o.items.map (Item.renum ρ)⟩

theorem countsAll_renum (ρ : Renum) (os : List ObjAst) : countsAll (os.map (ObjAst.renum ρ)) = countsAll os := by
  induction os with
  | nil => rfl
  | cons o os ih => rw [List.map_cons, countsAll_cons, countsAll_cons, ih, ObjAst.renum, countsOf_renum]

/-- Before the new statement nothing changes. -/
theorem goodObjects_before {n c lo : Counts} {os : List ObjAst}
    (h : (lo + countsAll os).v ≤ n.v ∧ (lo + countsAll os).vt ≤ n.vt ∧ (lo + countsAll os).vn ≤ n.vn)
    (hg : GoodObjects lo os) : GoodObjects lo (os.map (ObjAst.renum (.raise n c))) := by
  induction os generalizing lo with
  | nil => trivial
  | cons o os ih =>
    obtain ⟨h1, h2, h3⟩ := hg
    rw [countsAll_cons, ← counts_add_assoc] at h
    refine ⟨validItems_renum (fun pre hp => ?_) h1, fun hb => h2 (bare_renum.mp hb), ?_⟩
    · have := countsOf_prefix hp
      simp only [counts_add] at h
      refine ⟨?_, ?_, ?_⟩ <;> intro k k1 k2 <;> simp only [Renum.raise, raise, counts_add] at k1 k2 ⊢ <;> split <;> omega
    · rw [show (ObjAst.renum (.raise n c) o).items = o.items.map (Item.renum (.raise n c)) from rfl, countsOf_renum]
      exact ih h h3

/-- After the new statement everything is raised. -/
theorem goodObjects_after {n c lo : Counts} {os : List ObjAst} (h : n.v ≤ lo.v ∧ n.vt ≤ lo.vt ∧ n.vn ≤ lo.vn)
    (hg : GoodObjects lo os) : GoodObjects (lo + c) (os.map (ObjAst.renum (.raise n c))) := by
  induction os generalizing lo with
  | nil => trivial
  | cons o os ih =>
    obtain ⟨h1, h2, h3⟩ := hg
    refine ⟨validItems_renum (fun pre hp => ?_) h1, fun hb => h2 (bare_renum.mp hb), ?_⟩
    · refine ⟨?_, ?_, ?_⟩ <;> intro k k1 k2 <;> simp only [Renum.raise, raise, counts_add] at k1 k2 ⊢ <;> split <;> omega
    · rw [show (ObjAst.renum (.raise n c) o).items = o.items.map (Item.renum (.raise n c)) from rfl, countsOf_renum,
        counts_swap]
      refine ih ?_ h3
      simp only [counts_add]
      omega

theorem validFile_insert {libs : List Bytes} {os₁ : List ObjAst} {name : Bytes} {a b : List Item} {os₂ : List ObjAst}
    {x : Item} (hx : x.isData = true) (hxv : ValidItem {} {} x)
    (h : ValidFile ⟨libs, os₁ ++ ⟨name, a ++ b⟩ :: os₂⟩) : ValidFile (insertData libs os₁ name a b os₂ x) := by
  rw [validFile_iff] at h ⊢
  obtain ⟨h1, h2, h3, h4⟩ := h
  have hnames : (insertData libs os₁ name a b os₂ x).objects.map ObjAst.name =
      (os₁ ++ ⟨name, a ++ b⟩ :: os₂).map ObjAst.name := by
    simp [insertData, Function.comp_def]
  refine ⟨h1, by rw [hnames]; exact h2, by rw [hnames]; exact h3, ?_⟩
  dsimp only at h4
  rw [goodObjects_append] at h4
  obtain ⟨g1, g2, g3, g4⟩ := h4
  rw [counts_zero_add] at g2 g4
  dsimp only at g2 g3 g4
  rw [validItems_cut] at g2
  have hn : countsOf (os₁.flatMap ObjAst.items ++ a) = countsAll os₁ + countsOf a := by rw [countsOf_append]; rfl
  have hx' : ∀ lo hi, ValidItem lo hi x := by
    intro lo hi
    cases x <;> first | exact hxv | simp [Item.isData] at hx
  show GoodObjects {} (os₁.map (ObjAst.renum _) ++ _ :: os₂.map (ObjAst.renum _))
  rw [hn]
  rw [goodObjects_append]
  refine ⟨goodObjects_before (by rw [counts_zero_add]; simp [counts_add]) g1, ?_⟩
  rw [counts_zero_add, countsAll_renum]
  refine ⟨?_, ?_, ?_⟩
  · show ValidItems _ _ (_ ++ x :: _)
    rw [validItems_cut, countsOf_renum]
    refine ⟨validItems_renum (fun pre hp => ?_) g2.1, hx' _ _, validItems_renum (fun pre hp => ?_) g2.2⟩
    · have := countsOf_prefix hp
      refine ⟨?_, ?_, ?_⟩ <;> intro k k1 k2 <;> simp only [Renum.raise, raise, counts_add] at k1 k2 ⊢ <;> split <;> omega
    · refine ⟨?_, ?_, ?_⟩ <;> intro k k1 k2 <;> simp only [Renum.raise, raise, counts_add] at k1 k2 ⊢ <;> split <;> omega
  · intro hb
    refine g3 ?_
    have hb' : Bare ((a ++ b).map (Item.renum (.raise (countsAll os₁ + countsOf a) x.counts))) := by
      intro it hit
      refine hb it ?_
      rw [List.map_append] at hit
      simp only [List.mem_append, List.mem_cons] at hit ⊢
      tauto
    exact bare_renum.mp hb'
  · have e : countsOf (a.map (Item.renum (.raise (countsAll os₁ + countsOf a) x.counts)) ++
        x :: b.map (Item.renum (.raise (countsAll os₁ + countsOf a) x.counts))) = countsOf (a ++ b) + x.counts := by
      rw [countsOf_append, countsOf_cons, countsOf_renum, countsOf_renum, countsOf_append]
      simp only [counts_add, Counts.mk.injEq]
      omega
    show GoodObjects (_ + countsOf (_ ++ x :: _)) _
    rw [e, ← counts_add_assoc]
    refine goodObjects_after ?_ g4
    rw [countsOf_append]
    simp only [counts_add]
    omega

/-! ### The data of the renumbered references -/

theorem getElem?_raise {α : Type} (a x b : List α) {k : Nat} (hk : 0 < k) :
    (a ++ (x ++ b))[raise a.length x.length k - 1]? = (a ++ b)[k - 1]? := by
  unfold raise
  split
  · rw [List.getElem?_append_left (by omega), List.getElem?_append_left (by omega)]
  · rw [List.getElem?_append_right (by omega), List.getElem?_append_right (by omega), List.getElem?_append_right (by omega)]
    congr 1
    omega

theorem filterMap_renum (ρ : Renum) (items : List Item) :
    (items.map (Item.renum ρ)).filterMap (Item.vertex? (F := F)) = items.filterMap Item.vertex? ∧
    (items.map (Item.renum ρ)).filterMap (Item.texture? (F := F)) = items.filterMap Item.texture? ∧
    (items.map (Item.renum ρ)).filterMap (Item.normal? (F := F)) = items.filterMap Item.normal? := by
  refine ⟨?_, ?_, ?_⟩ <;> rw [List.filterMap_map] <;> congr 1 <;> funext it <;> cases it <;> rfl

omit [FloatSem F] in
theorem data_renum {vs vs' : List (Vertex F)} {ts ts' : List (TextureVertex F)} {ns ns' : List (NormalVertex F)}
    (ρ : Renum) (r : Ref) (h1 : vs'[ρ.v r.v - 1]? = vs[r.v - 1]?)
    (h2 : ∀ t ∈ r.vt, ts'[ρ.vt t - 1]? = ts[t - 1]?) (h3 : ∀ t ∈ r.vn, ns'[ρ.vn t - 1]? = ns[t - 1]?) :
    Ref.data vs' ts' ns' (r.renum ρ) = Ref.data vs ts ns r := by
  obtain ⟨v, vt, vn⟩ := r
  dsimp only at h1 h2 h3
  cases vt <;> cases vn <;> simp only [Ref.data, Ref.renum, h1, Option.map_none, Option.map_some] <;>
    cases vs[v - 1]? <;> simp_all

theorem data_insert (A B : List Item) (x : Item) (ρ : Renum)
    (hρ : ρ = .raise (countsOf A) x.counts) (file file' : FileAst)
    (h : file.objects.flatMap ObjAst.items = A ++ B)
    (h' : file'.objects.flatMap ObjAst.items = A.map (Item.renum ρ) ++ x :: B.map (Item.renum ρ)) {r : Ref}
    (hr : 0 < r.v ∧ (∀ t ∈ r.vt, 0 < t) ∧ ∀ t ∈ r.vn, 0 < t) :
    file'.data (F := F) (r.renum ρ) = file.data r := by
  have ca := countsOf_eq (F := F) A
  have cx := countsOf_eq (F := F) [x]
  have cx' : countsOf [x] = x.counts := by rw [countsOf_cons]; rfl
  rw [cx'] at cx
  obtain ⟨a1, a2, a3⟩ := filterMap_renum (F := F) ρ A
  obtain ⟨b1, b2, b3⟩ := filterMap_renum (F := F) ρ B
  have hx : ∀ {β : Type} (f : Item → Option β), (x :: B.map (Item.renum ρ)).filterMap f =
      [x].filterMap f ++ (B.map (Item.renum ρ)).filterMap f := by
    intro β f
    rw [← List.filterMap_append]
    rfl
  unfold FileAst.data
  rw [h, h']
  simp only [List.filterMap_append, hx, a1, a2, a3, b1, b2, b3]
  have k1 : ∀ k, 0 < k → (A.filterMap (Item.vertex? (F := F)) ++ ([x].filterMap Item.vertex? ++
      B.filterMap Item.vertex?))[ρ.v k - 1]? = (A.filterMap Item.vertex? ++ B.filterMap Item.vertex?)[k - 1]? := by
    intro k hk
    rw [hρ, ca, cx]
    exact getElem?_raise _ _ _ hk
  have k2 : ∀ k, 0 < k → (A.filterMap (Item.texture? (F := F)) ++ ([x].filterMap Item.texture? ++
      B.filterMap Item.texture?))[ρ.vt k - 1]? = (A.filterMap Item.texture? ++ B.filterMap Item.texture?)[k - 1]? := by
    intro k hk
    rw [hρ, ca, cx]
    exact getElem?_raise _ _ _ hk
  have k3 : ∀ k, 0 < k → (A.filterMap (Item.normal? (F := F)) ++ ([x].filterMap Item.normal? ++
      B.filterMap Item.normal?))[ρ.vn k - 1]? = (A.filterMap Item.normal? ++ B.filterMap Item.normal?)[k - 1]? := by
    intro k hk
    rw [hρ, ca, cx]
    exact getElem?_raise _ _ _ hk
  exact data_renum ρ r (k1 _ hr.1) (fun t ht => k2 t (hr.2.1 t ht)) fun t ht => k3 t (hr.2.2 t ht)

section
variable {input : Bytes} {r : ObjectSet F}

/-- **C88.** A vertex, texture vertex or normal can be inserted anywhere, if the references are
adjusted: the new file is accepted and every object shows the same as before. -/
theorem C88_insert (hlen : input.length < 2 ^ 63) {libs : List Bytes} {os₁ : List ObjAst} {name : Bytes}
    {a b : List Item} {os₂ : List ObjAst} (hf : FileOk cfg (tokens input) ⟨libs, os₁ ++ ⟨name, a ++ b⟩ :: os₂⟩)
    (h : Obj.parse cfg input = .ok r) {x : Item} (hx : x.isData = true) (hxv : ValidItem {} {} x)
    (hlen' : (insertData libs os₁ name a b os₂ x).text.length < 2 ^ 63) :
    ∃ r' : ObjectSet F, Obj.parse cfg (insertData libs os₁ name a b os₂ x).text = .ok r' ∧
      r'.material_libraries = r.material_libraries ∧
      r'.objects.map Object.name = r.objects.map Object.name ∧
      r'.objects.map scene = r.objects.map scene := by
  have hv := validFile_insert hx hxv (C28_read_valid hf)
  have h' := C28_write_read (F := F) (cfg := cfg) hv hlen'
  have hf' := file_text cfg hv hlen'
  refine ⟨_, h', ?_⟩
  have hr := h
  rw [parse_ok_of hlen hf, Out.ok.injEq] at hr
  generalize hfile : (⟨libs, os₁ ++ ⟨name, a ++ b⟩ :: os₂⟩ : FileAst) = file at hf hr
  generalize hfile' : insertData libs os₁ name a b os₂ x = file' at hf' h' hlen'
  generalize hρ : Renum.raise (countsOf (os₁.flatMap ObjAst.items ++ a)) x.counts = ρ
  have e' : file'.objects = os₁.map (ObjAst.renum ρ) ++
      ⟨name, a.map (Item.renum ρ) ++ x :: b.map (Item.renum ρ)⟩ :: os₂.map (ObjAst.renum ρ) := by
    rw [← hfile', ← hρ]; rfl
  have e : file.objects = os₁ ++ ⟨name, a ++ b⟩ :: os₂ := by rw [← hfile]
  -- object by object
  have hfilt : ∀ l : List Item, (l.map (Item.renum ρ)).filter (! Item.isData ·) =
      (l.filter (! Item.isData ·)).map (Item.renum ρ) := by
    intro l
    have : (fun it : Item => ! (it.renum ρ).isData) = (fun it : Item => ! it.isData) := by
      funext it; cases it <;> rfl
    rw [List.filter_map, Function.comp_def, this]
  let R : ObjAst → ObjAst → Prop := fun o o' => o'.name = o.name ∧
    o'.items.filter (! Item.isData ·) = (o.items.filter (! Item.isData ·)).map (Item.renum ρ)
  have hre : ∀ os : List ObjAst, List.Forall₂ R os (os.map (ObjAst.renum ρ)) := by
    intro os
    induction os with
    | nil => exact .nil
    | cons o os ih => exact .cons ⟨rfl, hfilt o.items⟩ ih
  have hR : List.Forall₂ R file.objects file'.objects := by
    rw [e, e']
    refine List.rel_append (hre os₁) (.cons ⟨rfl, ?_⟩ (hre os₂))
    simp [List.filter_append, hfilt, hx]
  have hl := hR.length_eq
  -- the data of references
  have hall : file.objects.flatMap ObjAst.items = (os₁.flatMap ObjAst.items ++ a) ++
      (b ++ os₂.flatMap ObjAst.items) := by rw [e]; simp
  have hmap : ∀ os : List ObjAst, (os.map (ObjAst.renum ρ)).flatMap ObjAst.items =
      (os.flatMap ObjAst.items).map (Item.renum ρ) := by
    intro os
    rw [List.flatMap_map, List.map_flatMap]
    rfl
  have hall' : file'.objects.flatMap ObjAst.items = (os₁.flatMap ObjAst.items ++ a).map (Item.renum ρ) ++
      x :: (b ++ os₂.flatMap ObjAst.items).map (Item.renum ρ) := by
    rw [e', List.flatMap_append, List.flatMap_cons, hmap, hmap]; simp
  have hlibs : file'.libs = file.libs := by rw [← hfile, ← hfile']; rfl
  subst hr
  refine ⟨hlibs, ?_, ?_⟩
  · have hn : ∀ (lo : Counts) (os : List ObjAst), (objectsMeaning lo os : List (Object F)).map Object.name =
        os.map ObjAst.name := by
      intro lo os
      induction os generalizing lo with
      | nil => rfl
      | cons o os ih => simp only [objectsMeaning, List.map_cons, ih]; rfl
    simp only [meaning, hn]
    rw [e, e']
    simp [ObjAst.renum, Function.comp_def]
  · refine List.ext_getElem? fun j => ?_
    rw [List.getElem?_map, List.getElem?_map]
    by_cases hj : j < file.objects.length
    · have ha : file.objects[j]? = some file.objects[j] := List.getElem?_eq_getElem hj
      have ha' : file'.objects[j]? = some file'.objects[j] := List.getElem?_eq_getElem (by omega)
      have hv := (parsed_object hlen hf h ha).2
      obtain ⟨o, o', g1, g2, g3⟩ := C88_renumber hlen hlen' hf hf' h h' ha ha' ρ
        ((List.forall₂_iff_get.mp hR).2 j hj (by omega)).2 (fun it hit ref href => by
          refine data_insert _ _ x ρ hρ.symm file file' hall hall' ?_
          have := items_refs_valid hv it hit ref href
          obtain ⟨⟨w1, -⟩, w2, w3⟩ := this
          exact ⟨by omega, fun t ht => by have := w2 t ht; omega, fun t ht => by have := w3 t ht; omega⟩)
      rw [g1, g2, Option.map_some, Option.map_some, g3]
    · have l1 : (meaning file : ObjectSet F).objects.length = file.objects.length := objectsMeaning_length _ _
      have l2 : (meaning file' : ObjectSet F).objects.length = file'.objects.length := objectsMeaning_length _ _
      rw [List.getElem?_eq_none (by omega), List.getElem?_eq_none (by omega)]

end

/-! ## Concrete cases -/

section
/-- A square with attributes. -/
def square : FileAst := ⟨[], [⟨b!"sq", [.v b!"0" b!"0" b!"0" none, .v b!"1" b!"0" b!"0" none,
  .v b!"1" b!"1" b!"0" none, .v b!"0" b!"1" b!"0" none, .usemtl b!"red", .s 2, .g [b!"top", b!"all"],
  .f [⟨1, none, none⟩, ⟨2, none, none⟩, ⟨3, none, none⟩, ⟨4, none, none⟩], .g [b!"edge"],
  .l [⟨1, none, none⟩, ⟨2, none, none⟩]]⟩]⟩

/-- The same square: vertices in another order and one that is not used. -/
def square' : FileAst := ⟨[], [⟨b!"sq", [.v b!"7" b!"7" b!"7" none, .v b!"0" b!"1" b!"0" none,
  .v b!"1" b!"1" b!"0" none, .v b!"1" b!"0" b!"0" none, .usemtl b!"red", .s 2, .v b!"0" b!"0" b!"0" none,
  .g [b!"top", b!"all"], .f [⟨5, none, none⟩, ⟨4, none, none⟩, ⟨3, none, none⟩, ⟨2, none, none⟩], .g [b!"edge"],
  .l [⟨5, none, none⟩, ⟨4, none, none⟩]]⟩]⟩

theorem square_valid : ValidFile square := by
  refine ⟨by decide, .inr (by decide), ?_, by decide, trivial⟩
  simp only [ValidItems, ValidItem, Uniform, ValidRef]; decide +kernel

theorem square_valid' : ValidFile square' := by
  refine ⟨by decide, .inr (by decide), ?_, by decide, trivial⟩
  simp only [ValidItems, ValidItem, Uniform, ValidRef]; decide +kernel

/-- What it shows. -/
example : (meaning square : ObjectSet Bytes).objects.map scene =
    [[some ⟨.face (.V ⟨b!"0", b!"0", b!"0", b!"1"⟩) (.V ⟨b!"1", b!"0", b!"0", b!"1"⟩) (.V ⟨b!"1", b!"1", b!"0", b!"1"⟩),
        [b!"top", b!"all"], 2, some b!"red"⟩,
      some ⟨.face (.V ⟨b!"0", b!"0", b!"0", b!"1"⟩) (.V ⟨b!"1", b!"1", b!"0", b!"1"⟩) (.V ⟨b!"0", b!"1", b!"0", b!"1"⟩),
        [b!"top", b!"all"], 2, some b!"red"⟩,
      some ⟨.line (.V ⟨b!"0", b!"0", b!"0", b!"1"⟩) (.V ⟨b!"1", b!"0", b!"0", b!"1"⟩),
        [b!"edge"], 2, some b!"red"⟩]] := by decide +kernel

/-- The hypotheses of `C88_scene` and `C88_renumber` hold of the two squares. -/
example : ∃ o o' : Object Bytes, (meaning square : ObjectSet Bytes).objects[0]? = some o ∧
    (meaning square' : ObjectSet Bytes).objects[0]? = some o' ∧ scene o' = scene o :=
  have h1 : square.text.length < 2 ^ 63 := by decide +kernel
  have h2 : square'.text.length < 2 ^ 63 := by decide +kernel
  C88_renumber (cfg := debug) h1 h2 (file_text debug square_valid h1) (file_text debug square_valid' h2)
    (C28_write_read square_valid h1) (C28_write_read square_valid' h2) (j := 0) (j' := 0) rfl rfl
    ⟨fun k => 6 - k, id, id⟩ (by decide +kernel) (by decide +kernel)

/-- A vertex inserted after the first one. -/
example : (insertData [] [] b!"sq" [.v b!"0" b!"0" b!"0" none]
    [.v b!"1" b!"0" b!"0" none, .l [⟨1, none, none⟩, ⟨2, none, none⟩]]
    [⟨b!"p", [.v b!"2" b!"0" b!"0" none, .p [3]]⟩] (.v b!"9" b!"9" b!"9" none)).text =
    b!"o sq\nv 0 0 0\nv 9 9 9\nv 1 0 0\nl 1 3\no p\nv 2 0 0\np 4\n" := by decide +kernel

def small : FileAst := ⟨[], [] ++ ⟨b!"sq", [.v b!"0" b!"0" b!"0" none] ++
    [.v b!"1" b!"0" b!"0" none, .l [⟨1, none, none⟩, ⟨2, none, none⟩]]⟩ ::
    [⟨b!"p", [.v b!"2" b!"0" b!"0" none, .p [3]]⟩]⟩

theorem small_valid : ValidFile small := by
  refine ⟨by decide, .inr (by decide), ?_, by decide, by decide, ?_, by decide, trivial⟩
  · simp only [List.singleton_append, ValidItems, ValidItem, Uniform, ValidRef]; decide +kernel
  · simp only [ValidItems, ValidItem]; decide +kernel

/-- The hypotheses of `C88_insert` hold of it. -/
example : ∃ r' : ObjectSet Bytes,
    Obj.parse debug b!"o sq\nv 0 0 0\nv 9 9 9\nv 1 0 0\nl 1 3\no p\nv 2 0 0\np 4\n" = .ok r' ∧
      r'.objects.map scene = (meaning small : ObjectSet Bytes).objects.map scene := by
  have h1 : small.text.length < 2 ^ 63 := by decide +kernel
  obtain ⟨r', g1, -, -, g2⟩ := C88_insert (F := Bytes) (cfg := debug) h1 (file_text debug small_valid h1)
    (C28_write_read small_valid h1) (x := .v b!"9" b!"9" b!"9" none) rfl (by decide) (by decide +kernel)
  exact ⟨r', g1, g2⟩

end

end Verif.Props
