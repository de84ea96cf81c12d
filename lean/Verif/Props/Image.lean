import Verif.Props.Scene
import Verif.Props.Float
import Verif.Props.Writing

/-!
# Which object sets can be results

`WellFormed` says, about the tables of an object alone, what every object that the parser returns
has. `write` goes the other way: from the tables of an object set it makes a file. The file is read
as exactly that object set, so `WellFormed` leaves nothing out.
-/

namespace Verif.Spec.Obj

open Verif Verif.Obj

section
variable {F : Type}

/-- The groups of successive shape entries. `GroupRun k cur es k' cur'`: the first `k` groups have
been introduced and `cur` are in force; each entry of `es` has either the groups in force or a run
of groups that come after all those introduced; afterwards `k'` groups have been introduced and
`cur'` are in force. An entry without groups comes after some group. -/
inductive GroupRun : Nat → List Nat → List ShapeEntry → Nat → List Nat → Prop
  | done {k cur} : GroupRun k cur [] k cur
  | same {k cur e es k' cur'} : 0 < k → e.groups = cur → GroupRun k cur es k' cur' →
      GroupRun k cur (e :: es) k' cur'
  | new {k cur e es k' cur' start n} : k ≤ start → 0 < start + n → e.groups = List.range' start n →
      GroupRun (start + n) e.groups es k' cur' → GroupRun k cur (e :: es) k' cur'

/-- What the tables of a parsed object satisfy. -/
structure WellFormed (o : Object F) : Prop where
  /-- indices point into the tables and have one form in each element; points have the form `V` -/
  elements : ∀ e ∈ o.element_set, Props.GoodElement o e
  /-- one shape entry per element, in the same order -/
  entries : o.shape_set.map ShapeEntry.element = List.range o.element_set.length
  /-- groups come in the order of the group table -/
  groups : ∃ k cur, GroupRun 0 [] o.shape_set k cur ∧ k ≤ o.group_set.length
  names : ∀ g ∈ o.group_set, IsToken g.name ∧ g.name ≠ nl
  /-- smoothing groups come in the order of their table -/
  smoothing : (o.shape_set.map ShapeEntry.smoothing_group).Pairwise (· ≤ ·)
  smooth : ∀ e ∈ o.shape_set, e.smoothing_group < o.smoothing_group_set.length
  numbers : ∀ g ∈ o.smoothing_group_set, g.number ≤ usizeMax
  /-- geometries cut the list of elements into pieces -/
  geometry : o.geometry_set.flatMap Geometry.shapes = List.range o.element_set.length
  /-- only the last piece can be empty -/
  pieces : ∀ g ∈ o.geometry_set.dropLast, g.shapes ≠ []
  /-- only the first piece can be without material -/
  materials : ∀ g ∈ o.geometry_set.tail, g.material_name ≠ none
  material_names : ∀ g ∈ o.geometry_set, ∀ m, g.material_name = some m → IsToken m
  /-- there is an element or a material -/
  something : o.element_set ≠ [] ∨ ∃ g ∈ o.geometry_set, g.material_name ≠ none

/-- What a parsed object set satisfies. -/
structure WellFormedSet (r : ObjectSet F) : Prop where
  libraries : ∀ n ∈ r.material_libraries, IsToken n ∧ n ≠ nl
  first : ∀ n ∈ (r.objects.map Object.name).head?, n = [] ∨ IsToken n
  others : ∀ n ∈ (r.objects.map Object.name).tail, IsToken n
  objects : ∀ o ∈ r.objects, WellFormed o

/-! ## A writer -/

/-- From position `i` up to but excluding position `j`. -/
def between {α : Type} (l : List α) (i j : Nat) : List α := (l.take j).drop i

/-- What has been written so far: how many groups, which are in force, how many smoothing groups. -/
structure Pen where
  groups : Nat := 0
  current : List Nat := []
  smoothing : Nat := 0

/-- Where the groups of an entry start in the table. -/
def startOf (k : Nat) : List Nat → Nat
  | [] => max k 1
  | a :: _ => a

def Pen.move (p : Pen) (e : ShapeEntry) : Pen where
  groups := if 0 < p.groups ∧ p.current = e.groups then p.groups else startOf p.groups e.groups + e.groups.length
  current := e.groups
  smoothing := max p.smoothing (e.smoothing_group + 1)

def groupItems (o : Object F) (p : Pen) (e : ShapeEntry) : List Item :=
  if 0 < p.groups ∧ p.current = e.groups then []
  else
    let start := startOf p.groups e.groups
    [.g ((between o.group_set p.groups start).map Group.name),
     .g ((between o.group_set start (start + e.groups.length)).map Group.name)]

def smoothItems (o : Object F) (p : Pen) (e : ShapeEntry) : List Item :=
  (between o.smoothing_group_set p.smoothing (e.smoothing_group + 1)).map fun g => .s g.number

def entryItems (o : Object F) (p : Pen) (e : ShapeEntry) : List Item :=
  groupItems o p e ++ smoothItems o p e ++ (o.element_set[e.element]?).toList.map Props.itemOf

def entriesItems (o : Object F) : Pen → List ShapeEntry → List Item
  | _, [] => []
  | p, e :: es => entryItems o p e ++ entriesItems o (p.move e) es

def geometryItems (o : Object F) : Pen → List ShapeEntry → List Geometry → List Item
  | p, _, [] => .g ((o.group_set.drop p.groups).map Group.name) ::
      (o.smoothing_group_set.drop p.smoothing).map fun g => .s g.number
  | p, es, g :: gs => g.material_name.toList.map Item.usemtl ++
      entriesItems o p (es.take g.shapes.length) ++
      geometryItems o ((es.take g.shapes.length).foldl Pen.move p) (es.drop g.shapes.length) gs

variable [FloatShow F]

/-- The statements of an object, as if it were the first of its file. -/
def writeItems (o : Object F) : List Item :=
  o.vertex_set.map Props.vItem ++ o.texture_vertex_set.map Props.vtItem ++ o.normal_vertex_set.map Props.vnItem ++
    geometryItems o {} o.shape_set o.geometry_set

def writeObjects (lo : Counts) : List (Object F) → List ObjAst
  | [] => []
  | o :: os => (ObjAst.mk o.name (writeItems o)).shift lo :: writeObjects (lo + Props.countsIn o) os

/-- The file for an object set. -/
def write (r : ObjectSet F) : FileAst := ⟨r.material_libraries, writeObjects {} r.objects⟩

end

end Verif.Spec.Obj

namespace Verif.Props

open Verif Verif.Obj Verif.Spec Verif.Spec.Obj

section
variable {F : Type} [FloatSem F]

/-! ## Results are well formed -/

theorem groupRun_append {k cur xs k1 cur1 ys k2 cur2} (h1 : GroupRun k cur xs k1 cur1)
    (h2 : GroupRun k1 cur1 ys k2 cur2) : GroupRun k cur (xs ++ ys) k2 cur2 := by
  induction h1 with
  | done => exact h2
  | same h e _ ih => exact .same h e (ih h2)
  | new h h' e _ ih => exact .new h h' e (ih h2)

theorem groupRun_same {k cur es} (hk : 0 < k) (h : ∀ e ∈ es, e.groups = cur) : GroupRun k cur es k cur := by
  induction es with
  | nil => exact .done
  | cons e es ih => exact .same hk (h e (by simp)) (ih fun x hx => h x (by simp [hx]))

/-- What has been introduced may be less. -/
theorem groupRun_less {k cur es k' cur'} (h : GroupRun k cur es k' cur') {j : Nat} (hj : j ≤ k) (h0 : 0 < j) :
    ∃ j' cur'', GroupRun j cur es j' cur'' ∧ j' ≤ k' := by
  induction h generalizing j with
  | done => exact ⟨_, _, .done, hj⟩
  | same h e _ ih =>
    obtain ⟨j', c, g1, g2⟩ := ih hj h0
    exact ⟨j', c, .same h0 e g1, g2⟩
  | new h h' e hr _ => exact ⟨_, _, .new (hj.trans h) h' e hr, le_rfl⟩

/-- What holds while the statements are read. -/
structure Reading (a : Acc F) : Prop where
  run : ∃ k cur, GroupRun 0 [] a.shapes k cur ∧
    ((0 < k ∧ a.inGroups = cur ∧ k ≤ a.groups.length) ∨
      ∃ start n, k ≤ start ∧ start + n = a.groups.length ∧ a.inGroups = List.range' start n)
  names : ∀ g ∈ a.groups, IsToken g.name ∧ g.name ≠ nl
  ordered : (a.shapes.map ShapeEntry.smoothing_group).Pairwise (· ≤ ·)
  exist : ∀ e ∈ a.shapes, e.smoothing_group < a.smoothing.length
  current : a.smoothing ≠ [] → a.inSmoothing + 1 = a.smoothing.length
  numbers : ∀ g ∈ a.smoothing, g.number ≤ usizeMax
  material : a.geometries ≠ [] → a.material ≠ none
  materials : ∀ g ∈ a.geometries.tail, g.material_name ≠ none
  token : ∀ m, a.material = some m → IsToken m
  tokens : ∀ g ∈ a.geometries, ∀ m, g.material_name = some m → IsToken m

omit [FloatSem F] in
theorem Reading.defaults {a : Acc F} (h : Reading a) :
    Reading a.defaults ∧ a.defaults.groups ≠ [] ∧ a.defaults.smoothing ≠ [] := by
  obtain ⟨⟨k, cur, hrun, hcur⟩, h2, h3, h4, h5, h6, h7, h8, h9, h10⟩ := h
  have hd : IsToken b!"default" ∧ b!"default" ≠ nl := by decide
  have hk : a.groups = [] → k = 0 := by
    intro hg
    rw [hg] at hcur
    rcases hcur with ⟨h0, -, h1⟩ | ⟨s, n, h1, h2, -⟩
    · simp at h1; omega
    · simp at h2; omega
  have hs : a.smoothing = [] → a.shapes = [] := by
    intro hs
    rw [hs] at h4
    rcases hsh : a.shapes with _ | ⟨e, es⟩
    · rfl
    · have := h4 e (by rw [hsh]; simp)
      simp at this
  unfold Acc.defaults
  by_cases hg : a.groups = [] <;> by_cases hm : a.smoothing = []
  · simp only [hg, hm, if_true]
    refine ⟨⟨⟨k, cur, hrun, .inr ⟨0, 1, by rw [hk hg], rfl, rfl⟩⟩, by simpa using hd, h3, ?_, by simp, by simp, h7, h8, h9, h10⟩,
      by simp, by simp⟩
    simp [hs hm]
  · simp only [hg, hm, if_true, if_false]
    exact ⟨⟨⟨k, cur, hrun, .inr ⟨0, 1, by rw [hk hg], rfl, rfl⟩⟩, by simpa using hd, h3, h4, h5, h6, h7, h8, h9, h10⟩,
      by simp, hm⟩
  · simp only [hg, hm, if_true, if_false]
    refine ⟨⟨⟨k, cur, hrun, hcur⟩, h2, h3, ?_, by simp, by simp, h7, h8, h9, h10⟩, hg, by simp⟩
    simp [hs hm]
  · simp only [hg, hm, if_false]
    exact ⟨⟨⟨k, cur, hrun, hcur⟩, h2, h3, h4, h5, h6, h7, h8, h9, h10⟩, hg, hm⟩

omit [FloatSem F] in
theorem Reading.add {a : Acc F} (h : Reading a) (hg : a.groups ≠ []) (hs : a.smoothing ≠ []) (es : List Element) :
    Reading (a.addElements es) := by
  obtain ⟨⟨k, cur, hrun, hcur⟩, h2, h3, h4, h5, h6, h7, h8, h9, h10⟩ := h
  have h5' := h5 hs
  have hlen : 0 < a.groups.length := by
    rcases hgg : a.groups with _ | ⟨x, xs⟩
    · exact absurd hgg hg
    · simp
  rcases es with _ | ⟨e, es⟩
  · simpa [Acc.addElements] using (⟨⟨k, cur, hrun, hcur⟩, h2, h3, h4, h5, h6, h7, h8, h9, h10⟩ : Reading a)
  generalize hn : (List.range' a.elements.length (e :: es).length).map (fun i =>
    ({ element := i, groups := a.inGroups, smoothing_group := a.inSmoothing } : ShapeEntry)) = new
  have hnew : ∀ x ∈ new, x.groups = a.inGroups ∧ x.smoothing_group = a.inSmoothing := by
    rw [← hn]
    intro x hx
    obtain ⟨i, -, rfl⟩ := List.mem_map.mp hx
    exact ⟨rfl, rfl⟩
  have hne : new ≠ [] := by rw [← hn]; simp
  have hadd : (a.addElements (e :: es)).shapes = a.shapes ++ new := by rw [← hn]; rfl
  refine ⟨?_, h2, ?_, ?_, h5, h6, h7, h8, h9, h10⟩
  · rw [hadd]
    rcases hcur with ⟨g1, g2, g3⟩ | ⟨s, n, g1, g2, g3⟩
    · exact ⟨k, cur, groupRun_append hrun (groupRun_same g1 fun x hx => (hnew x hx).1.trans g2), .inl ⟨g1, g2, g3⟩⟩
    · obtain ⟨x, xs, rfl⟩ := List.exists_cons_of_ne_nil hne
      refine ⟨s + n, a.inGroups, groupRun_append hrun (.new g1 (by omega) ((hnew x (by simp)).1.trans g3) ?_),
        .inl ⟨by omega, rfl, le_of_eq g2⟩⟩
      rw [(hnew x (by simp)).1]
      exact groupRun_same (by omega) fun y hy => (hnew y (by simp [hy])).1
  · rw [hadd, List.map_append, List.pairwise_append]
    refine ⟨h3, ?_, ?_⟩
    · rw [List.pairwise_map]
      refine List.pairwise_of_forall_mem_list fun x hx y hy => ?_
      rw [(hnew x hx).2, (hnew y hy).2]
    · intro x hx y hy
      obtain ⟨e1, he1, rfl⟩ := List.mem_map.mp hx
      obtain ⟨e2, he2, rfl⟩ := List.mem_map.mp hy
      rw [(hnew e2 he2).2]
      have := h4 e1 he1
      omega
  · rw [hadd]
    intro x hx
    change x.smoothing_group < a.smoothing.length
    rcases List.mem_append.mp hx with hx | hx
    · exact h4 x hx
    · rw [(hnew x hx).2]; omega

theorem Reading.step {lo hi : Counts} {a : Acc F} (h : Reading a) {it : Item} (hv : ValidItem lo hi it) :
    Reading (a.step lo it) := by
  have hel : it.isElement = true → Reading (a.step lo it) := by
    intro hi
    rw [step_element_eq lo _ hi]
    obtain ⟨g1, g2, g3⟩ := h.defaults
    exact g1.add g2 g3 _
  obtain ⟨⟨k, cur, hrun, hcur⟩, h2, h3, h4, h5, h6, h7, h8, h9, h10⟩ := h
  cases it with
  | p => exact hel rfl
  | l => exact hel rfl
  | f => exact hel rfl
  | v => exact ⟨⟨k, cur, hrun, hcur⟩, h2, h3, h4, h5, h6, h7, h8, h9, h10⟩
  | vt => exact ⟨⟨k, cur, hrun, hcur⟩, h2, h3, h4, h5, h6, h7, h8, h9, h10⟩
  | vn => exact ⟨⟨k, cur, hrun, hcur⟩, h2, h3, h4, h5, h6, h7, h8, h9, h10⟩
  | g names =>
    refine ⟨⟨k, cur, hrun, .inr ⟨a.groups.length, names.length, ?_, ?_, rfl⟩⟩, ?_, h3, h4, h5, h6, h7, h8, h9, h10⟩
    · rcases hcur with ⟨-, -, g⟩ | ⟨s, n, g1, g2, -⟩ <;> omega
    · simp [Acc.step]
    · intro g hg
      simp only [Acc.step, List.mem_append, List.mem_map] at hg
      rcases hg with hg | ⟨n, hn, rfl⟩
      · exact h2 g hg
      · exact hv n hn
  | s n =>
    refine ⟨⟨k, cur, hrun, hcur⟩, h2, h3, ?_, ?_, ?_, h7, h8, h9, h10⟩
    · intro e he
      have := h4 e he
      simp [Acc.step]; omega
    · simp [Acc.step]
    · intro g hg
      simp only [Acc.step, List.mem_append, List.mem_singleton] at hg
      rcases hg with hg | rfl
      · exact h6 g hg
      · exact hv
  | usemtl name =>
    have hname : ∀ m, some name = some m → IsToken m := by
      intro m hm
      obtain rfl := Option.some.inj hm
      exact hv
    simp only [Acc.step]
    split
    · exact ⟨⟨k, cur, hrun, hcur⟩, h2, h3, h4, h5, h6, fun _ => by simp, h8, hname, h10⟩
    · refine ⟨⟨k, cur, hrun, hcur⟩, h2, h3, h4, h5, h6, fun _ => by simp, ?_, hname, ?_⟩
      · intro g hg
        rcases hgeo : a.geometries with _ | ⟨x, xs⟩
        · simp [hgeo] at hg
        · simp only [hgeo, List.cons_append, List.tail_cons, List.mem_append, List.mem_singleton] at hg
          rcases hg with hg | rfl
          · exact h8 g (by rw [hgeo]; exact hg)
          · exact h7 (by rw [hgeo]; simp)
      · intro g hg m hm
        rcases List.mem_append.mp hg with hg | hg
        · exact h10 g hg m hm
        · obtain rfl := List.mem_singleton.mp hg
          exact h9 m hm

theorem reading {lo hi : Counts} {items : List Item} {a : Acc F} (h : Reading a) (hv : ValidItems lo hi items) :
    Reading (items.foldl (Acc.step lo) a) := by
  induction items generalizing a hi with
  | nil => exact h
  | cons it items ih => exact ih (h.step hv.1) hv.2

omit [FloatSem F] in
theorem reading_init : Reading ({} : Acc F) :=
  ⟨⟨0, [], .done, .inr ⟨0, 0, le_rfl, rfl, rfl⟩⟩, by simp, by simp, by simp, by simp, by simp, by simp, by simp, by simp,
    by simp⟩

theorem names_objectsMeaning (lo : Counts) (os : List ObjAst) :
    (objectsMeaning lo os : List (Object F)).map Object.name = os.map ObjAst.name := by
  induction os generalizing lo with
  | nil => rfl
  | cons o os ih => rw [objectsMeaning, List.map_cons, List.map_cons, ih]; rfl

theorem mem_objectsMeaning {lo : Counts} {os : List ObjAst} (hg : GoodObjects lo os) {o : Object F}
    (h : o ∈ objectsMeaning lo os) :
    ∃ lo' name items, o = objMeaning lo' ⟨name, items⟩ ∧ ValidItems lo' lo' items ∧ ¬ Bare items := by
  induction os generalizing lo with
  | nil => simp [objectsMeaning] at h
  | cons x os ih =>
    obtain ⟨g1, g2, g3⟩ := hg
    rcases List.mem_cons.mp h with rfl | h
    · exact ⟨lo, x.name, x.items, rfl, g1, g2⟩
    · exact ih g3 h

/-- With a `usemtl` statement, some geometry has a material. -/
theorem material_mem {lo : Counts} {name : Bytes} {items : List Item} (h : ∃ it ∈ items, it.isUsemtl = true) :
    ∃ g ∈ (objMeaning lo ⟨name, items⟩ : Object F).geometry_set, g.material_name ≠ none := by
  have hm := (matInv (F := F) lo items.reverse).material
  rw [← foldl_built] at hm
  refine ⟨⟨(items.foldl (Acc.step lo) ({} : Acc F)).material, (items.foldl (Acc.step lo) ({} : Acc F)).ofMaterial⟩,
    by simp [objMeaning], ?_⟩
  dsimp only
  rw [hm]
  obtain ⟨it, hit, hu⟩ := h
  have : ∀ l : List Item, it ∈ l → materialInForce l ≠ none := by
    intro l
    induction l with
    | nil => simp
    | cons x l ih =>
      intro hl
      rcases List.mem_cons.mp hl with rfl | hl
      · cases it <;> simp_all [Item.isUsemtl, materialInForce]
      · have := ih hl
        cases x <;> simp_all [materialInForce]
  exact this _ (by simpa using hit)

variable {cfg : Cfg} {input : Bytes} {r : ObjectSet F}

/-- **C89** Every object set that the parser returns is well formed. -/
theorem C89_results (hlen : input.length < 2 ^ 63) (h : Obj.parse cfg input = .ok r) : WellFormedSet r := by
  obtain ⟨file, hf, hr⟩ := (parse_ok_iff hlen).mp h
  obtain ⟨h1, h2, h3, h4⟩ := validFile_iff.mp (C28_read_valid hf)
  have hnames : r.objects.map Object.name = file.objects.map ObjAst.name := by
    rw [hr]; exact names_objectsMeaning _ _
  refine ⟨by rw [hr]; exact h1, by rw [hnames]; exact h2, by rw [hnames]; exact h3, fun o ho => ?_⟩
  have hgeo := C14_geometry_partition hlen h o ho
  have hgood : ∀ e ∈ o.element_set, GoodElement o e := fun e he => good_elements hlen h ho he
  have hshape := C12_shape_bijection hlen h o ho
  rw [hr] at ho
  obtain ⟨lo, name, items, rfl, hv, hb⟩ := mem_objectsMeaning h4 ho
  have hrd := reading reading_init hv (F := F)
  have hset : (objMeaning lo ⟨name, items⟩ : Object F).geometry_set =
    (items.foldl (Acc.step lo) ({} : Acc F)).geometries ++ [⟨(items.foldl (Acc.step lo) ({} : Acc F)).material,
      (items.foldl (Acc.step lo) ({} : Acc F)).ofMaterial⟩] := rfl
  refine ⟨hgood, hshape, ?_, hrd.names, hrd.ordered, hrd.exist, hrd.numbers, hgeo.1, hgeo.2.2, ?_, ?_, ?_⟩
  · obtain ⟨k, cur, g1, g2⟩ := hrd.run
    refine ⟨k, cur, g1, ?_⟩
    change k ≤ (items.foldl (Acc.step lo) ({} : Acc F)).groups.length
    rcases g2 with ⟨-, -, g⟩ | ⟨s, n, g2, g3, -⟩ <;> omega
  · rw [hset]
    intro g hg
    rcases hgeo : (items.foldl (Acc.step lo) ({} : Acc F)).geometries with _ | ⟨x, xs⟩
    · simp [hgeo] at hg
    · simp only [hgeo, List.cons_append, List.tail_cons, List.mem_append, List.mem_singleton] at hg
      rcases hg with hg | rfl
      · exact hrd.materials g (by rw [hgeo]; exact hg)
      · exact hrd.material (by rw [hgeo]; simp)
  · rw [hset]
    intro g hg m hm
    rcases List.mem_append.mp hg with hg | hg
    · exact hrd.tokens g hg m hm
    · obtain rfl := List.mem_singleton.mp hg
      exact hrd.token m hm
  · by_cases hu : ∃ it ∈ items, it.isUsemtl = true
    · exact .inr (material_mem hu)
    · refine .inl fun hnil => hb ?_
      have h0 : sizes items = 0 := by
        rw [← element_set_length (F := F) lo ⟨name, items⟩, hnil]; rfl
      have key : ∀ (l : List Item) (hi : Counts), ValidItems lo hi l → sizes l = 0 → ∀ it ∈ l, it.isElement = false := by
        intro l
        induction l with
        | nil => simp
        | cons x l ih =>
          intro hi hv hs it hit
          simp only [sizes, List.map_cons, List.sum_cons] at hs
          rcases List.mem_cons.mp hit with rfl | hit
          · have hv := hv.1
            cases it <;> simp_all [Item.isElement, Item.size, ValidItem] <;> omega
          · exact ih _ hv.2 (by unfold sizes; omega) it hit
      intro it hit
      exact ⟨key items lo hv h0 it hit, by simpa using fun e => hu ⟨it, hit, e⟩⟩

/-! ## What is written is read -/

theorem groupRun_le {k cur es k' cur'} (h : GroupRun k cur es k' cur') : k ≤ k' := by
  induction h with
  | done => exact le_rfl
  | same _ _ _ ih => exact ih
  | new h _ _ _ ih => omega

theorem between_append {α : Type} (l : List α) {i j : Nat} (h : i ≤ j) : l.take i ++ between l i j = l.take j := by
  unfold between
  have : (l.take j).take i = l.take i := by rw [List.take_take, Nat.min_eq_left h]
  rw [← this, List.take_append_drop]

theorem between_length {α : Type} (l : List α) {i j : Nat} (h : j ≤ l.length) : (between l i j).length = j - i := by
  simp [between, Nat.min_eq_left h]

/-- The first entry of a run. -/
theorem groupRun_move {p : Pen} {e : ShapeEntry} {es k' cur'} (h : GroupRun p.groups p.current (e :: es) k' cur') :
    (0 < p.groups ∧ p.current = e.groups ∨
      p.groups ≤ startOf p.groups e.groups ∧ 0 < startOf p.groups e.groups + e.groups.length ∧
        e.groups = List.range' (startOf p.groups e.groups) e.groups.length) ∧
    ∃ k'' cur'', GroupRun (p.move e).groups (p.move e).current es k'' cur'' ∧ k'' ≤ k' := by
  by_cases hc : 0 < p.groups ∧ p.current = e.groups
  · refine ⟨.inl hc, ?_⟩
    simp only [Pen.move, if_pos hc]
    cases h with
    | same h0 he hr => rw [he]; exact ⟨_, _, hr, le_rfl⟩
    | new h1 h2 he hr =>
      exact groupRun_less hr (by omega) hc.1
  · simp only [Pen.move, if_neg hc]
    cases h with
    | same h0 he hr => exact absurd ⟨h0, he.symm⟩ hc
    | @new _ _ _ _ _ _ start n h1 h2 he hr =>
      rcases n with _ | n
      · have he' : e.groups = [] := he
        simp only [he', startOf, List.length_nil, Nat.add_zero] at hr h2 ⊢
        refine ⟨.inr ⟨le_max_left _ _, by omega, rfl⟩, groupRun_less hr (by omega) (by omega)⟩
      · have hst : startOf p.groups e.groups = start := by rw [he, List.range'_succ]; rfl
        have hl : e.groups.length = n + 1 := by rw [he]; simp
        rw [hst, hl]
        exact ⟨.inr ⟨h1, h2, he⟩, _, _, hr, le_rfl⟩

/-- What has been read after `k` elements have been written. -/
structure Written (o : Object F) (p : Pen) (k : Nat) (a : Acc F) : Prop where
  vertices : a.vertices = o.vertex_set
  textures : a.textures = o.texture_vertex_set
  normals : a.normals = o.normal_vertex_set
  groups : a.groups = o.group_set.take p.groups
  inGroups : 0 < p.groups → a.inGroups = p.current
  smoothing : a.smoothing = o.smoothing_group_set.take p.smoothing
  inSmoothing : a.inSmoothing = a.smoothing.length - 1
  elements : a.elements = o.element_set.take k
  shapes : a.shapes = o.shape_set.take k

theorem fold_smooth (lo : Counts) (l : List SmoothingGroup) {a : Acc F} (h : a.inSmoothing = a.smoothing.length - 1) :
    (l.map fun g => Item.s g.number).foldl (Acc.step lo) a =
      { a with smoothing := a.smoothing ++ l, inSmoothing := (a.smoothing ++ l).length - 1 } := by
  induction l generalizing a with
  | nil => simp only [List.map_nil, List.foldl_nil, List.append_nil]; rw [← h]
  | cons g l ih =>
    rw [List.map_cons, List.foldl_cons, ih]
    · simp [Acc.step]
    · simp [Acc.step]

theorem map_mk (l : List Obj.Group) : (l.map Group.name).map Obj.Group.mk = l := by
  rw [List.map_map]; exact List.map_id _

theorem fold_group (lo : Counts) {o : Object F} {p : Pen} {e : ShapeEntry} {es k' cur'} {a : Acc F}
    (h1 : a.groups = o.group_set.take p.groups) (h2 : 0 < p.groups → a.inGroups = p.current)
    (hr : GroupRun p.groups p.current (e :: es) k' cur') (hk : k' ≤ o.group_set.length) :
    (groupItems o p e).foldl (Acc.step lo) a =
      { a with groups := o.group_set.take (p.move e).groups, inGroups := e.groups } := by
  obtain ⟨hc, k'', cur'', hr', hk'⟩ := groupRun_move hr
  have hm := groupRun_le hr'
  by_cases hcond : 0 < p.groups ∧ p.current = e.groups
  · simp only [groupItems, Pen.move, if_pos hcond, List.foldl_nil]
    rw [← h1, ← hcond.2, ← h2 hcond.1]
  · obtain ⟨g1, g2, g3⟩ := hc.resolve_left hcond
    simp only [Pen.move, if_neg hcond] at hm
    simp only [groupItems, Pen.move, if_neg hcond, List.foldl_cons, List.foldl_nil, Acc.step, map_mk, h1,
      between_append _ g1, between_append _ (Nat.le_add_right _ _), List.length_map, List.length_take]
    rw [between_length _ (by omega), Nat.min_eq_left (by omega), Nat.add_sub_cancel_left, ← g3]

theorem take_succ_of {α : Type} {l : List α} {k : Nat} {x : α} (h : l[k]? = some x) : l.take (k + 1) = l.take k ++ [x] := by
  rw [List.take_add_one, h]; rfl

theorem written_entry {o : Object F} (hw : WellFormed o) {p : Pen} {k : Nat} {a : Acc F} (h : Written o p k a)
    {e : ShapeEntry} {es k' cur'} (he : o.shape_set[k]? = some e)
    (hr : GroupRun p.groups p.current (e :: es) k' cur') (hk : k' ≤ o.group_set.length)
    (hs : p.smoothing ≤ e.smoothing_group + 1) :
    ∃ b, (entryItems o p e).foldl (Acc.step {}) a = b ∧ Written o (p.move e) (k + 1) b ∧
      b.geometries = a.geometries ∧ b.material = a.material ∧ b.ofMaterial = a.ofMaterial ++ [k] := by
  obtain ⟨h1, h2, h3, h4, h5, h6, h7, h8, h9⟩ := h
  have hek : e.element = k ∧ k < o.element_set.length := by
    have := congrArg (fun l => l[k]?) hw.entries
    simp only [List.getElem?_map, he, Option.map_some] at this
    by_cases hkl : k < o.element_set.length
    · rw [List.getElem?_range hkl] at this
      exact ⟨Option.some.inj this, hkl⟩
    · rw [List.getElem?_eq_none (by simpa using hkl)] at this
      simp at this
  obtain ⟨x, hx⟩ : ∃ x, o.element_set[k]? = some x := ⟨_, List.getElem?_eq_getElem hek.2⟩
  have hgood := hw.elements x (List.mem_of_getElem? hx)
  have hsm := hw.smooth e (List.mem_of_getElem? he)
  have hm : (p.move e).smoothing = e.smoothing_group + 1 := by simp only [Pen.move]; omega
  obtain ⟨hc, k'', cur'', hr', hk'⟩ := groupRun_move hr
  have hpos : 0 < (p.move e).groups := by
    simp only [Pen.move]
    split
    · rename_i hcond; exact hcond.1
    · rename_i hcond; exact (hc.resolve_left hcond).2.1
  have hle := groupRun_le hr'
  refine ⟨_, rfl, ?_⟩
  unfold entryItems
  rw [List.foldl_append, List.foldl_append, fold_group {} h4 h5 hr hk, smoothItems, fold_smooth {} _ (by exact h7), hek.1, hx]
  simp only [Option.toList_some, List.map_cons, List.map_nil, List.foldl_cons, List.foldl_nil]
  rw [h6, between_append _ hs, List.length_take, Nat.min_eq_left (by omega), Nat.add_sub_cancel]
  have hstep : ∀ c : Acc F, c.groups ≠ [] → c.smoothing ≠ [] → c.step {} (itemOf x) = c.addElements [x] := by
    intro c hg hsg
    rw [step_element_eq {} c (by cases x <;> rfl), itemOf_elements hgood]
    simp [Acc.defaults, hg, hsg]
  rw [hstep _ (List.ne_nil_of_length_pos (by simp only [List.length_take]; omega))
    (List.ne_nil_of_length_pos (by simp only [List.length_take]; omega))]
  have hel : a.elements.length = k := by rw [h8]; simp; omega
  refine ⟨⟨h1, h2, h3, rfl, fun _ => rfl, ?_, ?_, ?_, ?_⟩, rfl, rfl, ?_⟩
  · rw [hm]; rfl
  · simp [Acc.addElements]; omega
  · simp only [Acc.addElements]; rw [h8, take_succ_of hx]
  · simp only [Acc.addElements]
    rw [h9, take_succ_of he, hel]
    simp only [List.length_singleton, List.range'_one, List.map_cons, List.map_nil]
    obtain ⟨e1, e2, e3⟩ := e
    obtain rfl := hek.1
    rfl
  · simp only [Acc.addElements, hel, List.length_singleton, List.range'_one]

theorem written_entries {o : Object F} (hw : WellFormed o) (es : List ShapeEntry) {rest : List ShapeEntry} {p : Pen}
    {k : Nat} {a : Acc F} (h : Written o p k a) {k' cur'} (he : o.shape_set.drop k = es ++ rest)
    (hr : GroupRun p.groups p.current (es ++ rest) k' cur') (hk : k' ≤ o.group_set.length)
    (hs : ∀ e ∈ es ++ rest, p.smoothing ≤ e.smoothing_group + 1) :
    ∃ b, (entriesItems o p es).foldl (Acc.step {}) a = b ∧ Written o (es.foldl Pen.move p) (k + es.length) b ∧
      b.geometries = a.geometries ∧ b.material = a.material ∧
      b.ofMaterial = a.ofMaterial ++ List.range' k es.length ∧
      (∃ k'' cur'', GroupRun (es.foldl Pen.move p).groups (es.foldl Pen.move p).current rest k'' cur'' ∧
        k'' ≤ o.group_set.length) ∧
      ∀ e ∈ rest, (es.foldl Pen.move p).smoothing ≤ e.smoothing_group + 1 := by
  induction es generalizing p k a k' cur' with
  | nil => exact ⟨a, rfl, h, rfl, rfl, by simp, ⟨_, _, hr, hk⟩, hs⟩
  | cons e es ih =>
    have hek : o.shape_set[k]? = some e := by
      have := congrArg (fun l => l[0]?) he
      simpa using this
    have hdrop : o.shape_set.drop (k + 1) = es ++ rest := by
      rw [← List.drop_drop, he]; rfl
    obtain ⟨b, hb, hwr, hg, hm, hof⟩ := written_entry hw h hek hr hk (hs e (by simp))
    obtain ⟨-, k'', cur'', hr', hk'⟩ := groupRun_move hr
    have hord : ∀ x ∈ es ++ rest, e.smoothing_group ≤ x.smoothing_group := by
      have hp : ((o.shape_set.drop k).map ShapeEntry.smoothing_group).Pairwise (· ≤ ·) := by
        rw [List.map_drop]; exact hw.smoothing.drop
      rw [he, List.cons_append, List.map_cons, List.pairwise_cons] at hp
      exact fun x hx => hp.1 _ (List.mem_map_of_mem hx)
    have hs' : ∀ x ∈ es ++ rest, (p.move e).smoothing ≤ x.smoothing_group + 1 := by
      intro x hx
      have h1 := hs e (by simp)
      have h2 := hord x hx
      simp only [Pen.move]; omega
    obtain ⟨c, hc, hwr', hg', hm', hof', hrun, hsm⟩ := ih hwr hdrop hr' (hk'.trans hk) hs'
    refine ⟨c, ?_, ?_, hg'.trans hg, hm'.trans hm, ?_, hrun, hsm⟩
    · rw [entriesItems, List.foldl_append, hb, hc]
    · rw [List.foldl_cons, List.length_cons, Nat.add_comm es.length 1, ← Nat.add_assoc]; exact hwr'
    · rw [hof', hof, List.length_cons, List.range'_succ, List.append_assoc]; rfl

/-- The pieces of a range. -/
theorem range_piece {xs ys : List Nat} {k n : Nat} (h : xs ++ ys = List.range' k n) :
    xs = List.range' k xs.length ∧ ys = List.range' (k + xs.length) (n - xs.length) ∧ xs.length ≤ n := by
  have hl : xs.length + ys.length = n := by simpa using congrArg List.length h
  have h2 : List.range' k n = List.range' k xs.length ++ List.range' (k + xs.length) ys.length := by
    rw [← hl, List.range'_append_1]
  rw [h2] at h
  obtain ⟨e1, e2⟩ := List.append_inj h (by simp)
  exact ⟨e1, by rw [show n - xs.length = ys.length by omega]; exact e2, by omega⟩

theorem written_geometry {o : Object F} (hw : WellFormed o) (gs : List Geometry) {p : Pen} {k : Nat} {a : Acc F}
    (h : Written o p k a) (hkn : k ≤ o.shape_set.length)
    (hgeo : gs.flatMap Geometry.shapes = List.range' k (o.shape_set.length - k))
    (hmat : ∀ g ∈ gs, g.material_name ≠ none) (hne : gs ≠ [] → a.ofMaterial ≠ [])
    (hpieces : ∀ g ∈ gs.dropLast, g.shapes ≠ []) {k' cur'}
    (hr : GroupRun p.groups p.current (o.shape_set.drop k) k' cur') (hk : k' ≤ o.group_set.length)
    (hs : ∀ e ∈ o.shape_set.drop k, p.smoothing ≤ e.smoothing_group + 1) :
    ∃ b, (geometryItems o p (o.shape_set.drop k) gs).foldl (Acc.step {}) a = b ∧
      b.vertices = o.vertex_set ∧ b.textures = o.texture_vertex_set ∧ b.normals = o.normal_vertex_set ∧
      b.groups = o.group_set ∧ b.smoothing = o.smoothing_group_set ∧ b.elements = o.element_set ∧
      b.shapes = o.shape_set ∧
      b.geometries ++ [⟨b.material, b.ofMaterial⟩] = a.geometries ++ ⟨a.material, a.ofMaterial⟩ :: gs := by
  induction gs generalizing p k a k' cur' with
  | nil =>
    have hlen : o.shape_set.length - k = 0 := by
      have := congrArg List.length hgeo
      simpa using this.symm
    have hk0 : k = o.shape_set.length := by omega
    have hel : o.shape_set.length = o.element_set.length := by
      simpa using congrArg List.length hw.entries
    refine ⟨_, rfl, ?_⟩
    rw [geometryItems, List.foldl_cons, fold_smooth _ _ (by exact h.inSmoothing)]
    refine ⟨h.vertices, h.textures, h.normals, ?_, ?_, ?_, ?_, rfl⟩
    · simp only [Acc.step, map_mk, h.groups, List.take_append_drop]
    · simp only [Acc.step, h.smoothing, List.take_append_drop]
    · simp only [Acc.step]; rw [h.elements, hk0, hel, List.take_length]
    · simp only [Acc.step]; rw [h.shapes, hk0, List.take_length]
  | cons g gs ih =>
    obtain ⟨m, hm⟩ : ∃ m, g.material_name = some m := Option.ne_none_iff_exists'.mp (hmat g (by simp))
    obtain ⟨e1, e2, e3⟩ := range_piece (xs := g.shapes) (by simpa using hgeo)
    have ha := hne (by simp)
    have hW : Written o p k (a.step {} (.usemtl m)) := by
      simp only [Acc.step, if_neg ha]
      exact ⟨h.vertices, h.textures, h.normals, h.groups, h.inGroups, h.smoothing, h.inSmoothing, h.elements, h.shapes⟩
    have hsplit : o.shape_set.drop k =
        (o.shape_set.drop k).take g.shapes.length ++ (o.shape_set.drop k).drop g.shapes.length :=
      (List.take_append_drop _ _).symm
    have htl : ((o.shape_set.drop k).take g.shapes.length).length = g.shapes.length := by
      simp; omega
    obtain ⟨b, hb, hwr, hg, hmm, hof, ⟨k'', cur'', hrun, hk''⟩, hsm⟩ :=
      written_entries hw ((o.shape_set.drop k).take g.shapes.length)
        (rest := (o.shape_set.drop k).drop g.shapes.length) hW hsplit (by rw [← hsplit]; exact hr) hk
        (by rw [← hsplit]; exact hs)
    simp only [Acc.step, if_neg ha, List.nil_append] at hg hmm hof
    rw [htl] at hwr hof
    rw [← e1] at hof
    rw [List.drop_drop] at hrun hsm
    obtain ⟨c, hc, c1, c2, c3, c4, c5, c6, c7, c8⟩ := ih hwr (by omega)
      (by rw [e2]; congr 1; omega) (fun x hx => hmat x (by simp [hx]))
      (fun hne' => by
        rw [hof]
        refine hpieces g ?_
        rw [List.dropLast_cons_of_ne_nil hne']; simp)
      (fun x hx => hpieces x (by
        rcases gs with _ | ⟨y, ys⟩
        · simp at hx
        · rw [List.dropLast_cons_of_ne_nil (by simp)]; simp [hx]))
      hrun hk'' hsm
    refine ⟨c, ?_, c1, c2, c3, c4, c5, c6, c7, ?_⟩
    · rw [geometryItems, hm, List.foldl_append, List.foldl_append, List.drop_drop]
      simp only [Option.toList_some, List.map_cons, List.map_nil, List.foldl_cons, List.foldl_nil]
      rw [hb, hc]
    · rw [c8, hg, hmm, hof]
      obtain ⟨gm, gsh⟩ := g
      obtain rfl : gm = some m := hm
      simp

variable [FloatShow F] [LawfulFloat F]

theorem fold_v (lo : Counts) (l : List (Vertex F)) (a : Acc F) :
    (l.map vItem).foldl (Acc.step lo) a = { a with vertices := a.vertices ++ l } := by
  induction l generalizing a with
  | nil => simp
  | cons x l ih =>
    rw [List.map_cons, List.foldl_cons, ih]
    simp [Acc.step, vItem, LawfulFloat.value_display]

theorem fold_vt (lo : Counts) (l : List (TextureVertex F)) (a : Acc F) :
    (l.map vtItem).foldl (Acc.step lo) a = { a with textures := a.textures ++ l } := by
  induction l generalizing a with
  | nil => simp
  | cons x l ih =>
    rw [List.map_cons, List.foldl_cons, ih]
    simp [Acc.step, vtItem, LawfulFloat.value_display]

theorem fold_vn (lo : Counts) (l : List (NormalVertex F)) (a : Acc F) :
    (l.map vnItem).foldl (Acc.step lo) a = { a with normals := a.normals ++ l } := by
  induction l generalizing a with
  | nil => simp
  | cons x l ih =>
    rw [List.map_cons, List.foldl_cons, ih]
    simp [Acc.step, vnItem, LawfulFloat.value_display]

omit [FloatSem F] [FloatShow F] [LawfulFloat F] in
theorem wellFormed_nonempty {o : Object F} (hw : WellFormed o) : o.geometry_set ≠ [] := by
  intro h
  rcases hw.something with h1 | ⟨g, hg, -⟩
  · have := hw.geometry
    rw [h, List.flatMap_nil] at this
    have := congrArg List.length this
    simp at this
    exact h1 (List.eq_nil_of_length_eq_zero this.symm)
  · rw [h] at hg; simp at hg

theorem written_object {o : Object F} (hw : WellFormed o) : objMeaning {} ⟨o.name, writeItems o⟩ = o := by
  have hel : o.shape_set.length = o.element_set.length := by simpa using congrArg List.length hw.entries
  have key : ∃ b, (writeItems o).foldl (Acc.step {}) ({} : Acc F) = b ∧
      b.vertices = o.vertex_set ∧ b.textures = o.texture_vertex_set ∧ b.normals = o.normal_vertex_set ∧
      b.groups = o.group_set ∧ b.smoothing = o.smoothing_group_set ∧ b.elements = o.element_set ∧
      b.shapes = o.shape_set ∧ b.geometries ++ [⟨b.material, b.ofMaterial⟩] = o.geometry_set := by
    unfold writeItems
    rw [List.foldl_append, List.foldl_append, List.foldl_append, fold_v, fold_vt, fold_vn]
    simp only [List.nil_append]
    obtain ⟨k', cur', hr, hk⟩ := hw.groups
    obtain ⟨g, gs, hgs⟩ := List.exists_cons_of_ne_nil (wellFormed_nonempty hw)
    have hgeo := hw.geometry
    have hmat := hw.materials
    have hpieces := hw.pieces
    rw [hgs] at hgeo hmat hpieces ⊢
    rw [← hel, List.range_eq_range', List.flatMap_cons] at hgeo
    obtain ⟨e1, e2, e3⟩ := range_piece hgeo
    generalize ha : ({ vertices := o.vertex_set, textures := o.texture_vertex_set, normals := o.normal_vertex_set } : Acc F) = a
    have hW : Written o {} 0 ((g.material_name.toList.map Item.usemtl).foldl (Acc.step {}) a) := by
      subst ha
      rcases g.material_name with _ | m <;> constructor <;> simp [Acc.step]
    have hG : ((g.material_name.toList.map Item.usemtl).foldl (Acc.step {}) a).geometries = [] := by
      subst ha
      rcases g.material_name with _ | m <;> simp [Acc.step]
    have hM : ((g.material_name.toList.map Item.usemtl).foldl (Acc.step {}) a).material = g.material_name := by
      subst ha
      rcases g.material_name with _ | m <;> simp [Acc.step]
    have hO : ((g.material_name.toList.map Item.usemtl).foldl (Acc.step {}) a).ofMaterial = [] := by
      subst ha
      rcases g.material_name with _ | m <;> simp [Acc.step]
    have hsplit : o.shape_set.drop 0 = o.shape_set.take g.shapes.length ++ o.shape_set.drop g.shapes.length :=
      (List.take_append_drop _ _).symm
    have htl : (o.shape_set.take g.shapes.length).length = g.shapes.length := by simp; omega
    obtain ⟨b, hb, hwr, hg, hmm, hof, ⟨k'', cur'', hrun, hk''⟩, hsm⟩ :=
      written_entries hw (o.shape_set.take g.shapes.length) (rest := o.shape_set.drop g.shapes.length) hW hsplit
        (by rw [← hsplit]; exact hr) hk (fun _ _ => Nat.zero_le _)
    rw [hG] at hg
    rw [hM] at hmm
    rw [hO, htl, List.nil_append, ← e1] at hof
    rw [htl, Nat.zero_add] at hwr
    obtain ⟨c, hc, c1, c2, c3, c4, c5, c6, c7, c8⟩ := written_geometry hw gs hwr e3 (by rw [e2, Nat.zero_add]) hmat
      (fun hne => by
        rw [hof]
        refine hpieces g ?_
        rw [List.dropLast_cons_of_ne_nil hne]; simp)
      (fun x hx => hpieces x (by
        rcases gs with _ | ⟨y, ys⟩
        · simp at hx
        · rw [List.dropLast_cons_of_ne_nil (by simp)]; simp [hx]))
      hrun hk'' hsm
    refine ⟨c, ?_, c1, c2, c3, c4, c5, c6, c7, ?_⟩
    · rw [geometryItems, List.foldl_append, List.foldl_append, hb, hc]
    · rw [c8, hg, hmm, hof]; rfl
  obtain ⟨b, hb, c1, c2, c3, c4, c5, c6, c7, c8⟩ := key
  simp only [objMeaning, hb, c1, c2, c3, c4, c5, c6, c7, c8]

/-! ## What is written is a file -/

omit [FloatSem F] [FloatShow F] [LawfulFloat F] in
/-- A statement that defines nothing and is valid where all of the object is defined. -/
theorem entryItems_valid {o : Object F} (hw : WellFormed o) (p : Pen) (e : ShapeEntry) :
    ∀ it ∈ entryItems o p e, it.counts = {} ∧ ValidItem {} (countsIn o) it := by
  intro it hit
  have hn : ∀ (i j : Nat), ∀ n ∈ (between o.group_set i j).map Group.name, IsToken n ∧ n ≠ nl := by
    intro i j n hn
    obtain ⟨g, hg, rfl⟩ := List.mem_map.mp hn
    exact hw.names g (List.mem_of_mem_take (List.mem_of_mem_drop hg))
  simp only [entryItems, List.mem_append] at hit
  rcases hit with (hit | hit) | hit
  · unfold groupItems at hit
    split at hit
    · simp at hit
    · simp only [List.mem_cons, List.not_mem_nil, or_false] at hit
      rcases hit with rfl | rfl
      · exact ⟨rfl, hn _ _⟩
      · exact ⟨rfl, hn _ _⟩
  · obtain ⟨g, hg, rfl⟩ := List.mem_map.mp hit
    exact ⟨rfl, hw.numbers g (List.mem_of_mem_take (List.mem_of_mem_drop hg))⟩
  · obtain ⟨x, hx, rfl⟩ := List.mem_map.mp hit
    exact ⟨by cases x <;> rfl, itemOf_valid (hw.elements x (List.mem_of_getElem? (by simpa using hx)))⟩

omit [FloatSem F] [FloatShow F] [LawfulFloat F] in
theorem entriesItems_valid {o : Object F} (hw : WellFormed o) (es : List ShapeEntry) (p : Pen) :
    ∀ it ∈ entriesItems o p es, it.counts = {} ∧ ValidItem {} (countsIn o) it := by
  induction es generalizing p with
  | nil => simp [entriesItems]
  | cons e es ih =>
    intro it hit
    rcases List.mem_append.mp hit with hit | hit
    · exact entryItems_valid hw p e it hit
    · exact ih _ it hit

omit [FloatSem F] [FloatShow F] [LawfulFloat F] in
theorem geometryItems_valid {o : Object F} (hw : WellFormed o) (gs : List Geometry) (hg : ∀ g ∈ gs, g ∈ o.geometry_set)
    (es : List ShapeEntry) (p : Pen) :
    ∀ it ∈ geometryItems o p es gs, it.counts = {} ∧ ValidItem {} (countsIn o) it := by
  induction gs generalizing es p with
  | nil =>
    intro it hit
    rcases List.mem_cons.mp hit with rfl | hit
    · refine ⟨rfl, fun n hn => ?_⟩
      obtain ⟨g, hg, rfl⟩ := List.mem_map.mp hn
      exact hw.names g (List.mem_of_mem_drop hg)
    · obtain ⟨g, hg, rfl⟩ := List.mem_map.mp hit
      exact ⟨rfl, hw.numbers g (List.mem_of_mem_drop hg)⟩
  | cons g gs ih =>
    intro it hit
    simp only [geometryItems, List.mem_append] at hit
    rcases hit with (hit | hit) | hit
    · obtain ⟨m, hm, rfl⟩ := List.mem_map.mp hit
      exact ⟨rfl, hw.material_names g (hg g (by simp)) m (by simpa using hm)⟩
    · exact entriesItems_valid hw _ _ it hit
    · exact ih (fun x hx => hg x (by simp [hx])) _ _ it hit

omit [FloatSem F] [FloatShow F] [LawfulFloat F] in
theorem countsOf_zero {l : List Item} (h : ∀ it ∈ l, it.counts = {}) : countsOf l = {} := by
  induction l with
  | nil => rfl
  | cons x l ih =>
    rw [countsOf_cons, h x (by simp), ih fun y hy => h y (by simp [hy])]; rfl

omit [FloatSem F] [LawfulFloat F] in
theorem countsOf_write {o : Object F} (hw : WellFormed o) : countsOf (writeItems o) = countsIn o := by
  unfold writeItems
  rw [countsOf_append, counts_data,
    countsOf_zero fun it hit => (geometryItems_valid hw _ (fun _ h => h) _ _ it hit).1, counts_add]
  rfl

theorem writeItems_valid {o : Object F} (hw : WellFormed o) : ValidItems {} {} (writeItems o) := by
  have hf := LawfulFloat.isFloat_display (F := F)
  unfold writeItems
  refine validItems_append (validItems_all ?_) (validItems_elements ?_)
  · intro it hit hi
    simp only [List.mem_append, List.mem_map] at hit
    rcases hit with (⟨a, _, rfl⟩ | ⟨a, _, rfl⟩) | ⟨a, _, rfl⟩
    · exact ⟨hf _, hf _, hf _, by simp [hf]⟩
    · exact ⟨hf _, by simp [hf], by simp [hf], by simp⟩
    · exact ⟨hf _, hf _, hf _⟩
  · rw [counts_data, counts_zero_add]
    exact geometryItems_valid hw _ (fun _ h => h) _ _

omit [FloatSem F] [FloatShow F] [LawfulFloat F] in
theorem sizes_bare {items : List Item} (h : Bare items) : sizes items = 0 := by
  induction items with
  | nil => rfl
  | cons it items ih =>
    have h1 := (h it (by simp)).1
    have h2 := ih fun x hx => h x (by simp [hx])
    simp only [sizes, List.map_cons, List.sum_cons] at h2 ⊢
    cases it <;> simp_all [Item.isElement, Item.size]

theorem write_not_bare {o : Object F} (hw : WellFormed o) : ¬ Bare (writeItems o) := by
  intro hb
  have ho := written_object hw
  have hm : (objMeaning {} ⟨o.name, writeItems o⟩ : Object F).element_set = o.element_set ∧
      (objMeaning {} ⟨o.name, writeItems o⟩ : Object F).geometry_set = o.geometry_set := by rw [ho]; exact ⟨rfl, rfl⟩
  rcases hw.something with h | ⟨g, hg, hne⟩
  · refine h ?_
    rw [← hm.1]
    refine List.eq_nil_of_length_eq_zero ?_
    rw [element_set_length]
    exact sizes_bare hb
  · have hu : Item.usemtl (g.material_name.get (Option.isSome_iff_ne_none.mpr hne)) ∈ writeItems o := by
      have : ∀ (gs : List Geometry) (es : List ShapeEntry) (p : Pen), g ∈ gs →
          Item.usemtl (g.material_name.get (Option.isSome_iff_ne_none.mpr hne)) ∈ geometryItems o p es gs := by
        intro gs
        induction gs with
        | nil => simp
        | cons x gs ih =>
          intro es p hx
          simp only [geometryItems, List.mem_append]
          rcases List.mem_cons.mp hx with rfl | hx
          · exact .inl (.inl (List.mem_map_of_mem (by simp)))
          · exact .inr (ih _ _ hx)
      exact List.mem_append_right _ (this _ _ _ hg)
    simpa [Item.isUsemtl] using (hb _ hu).2

theorem write_good {lo : Counts} {os : List (Object F)} (h : ∀ o ∈ os, WellFormed o) :
    GoodObjects lo (writeObjects lo os) ∧ objectsMeaning lo (writeObjects lo os) = os ∧
      (writeObjects lo os).map ObjAst.name = os.map Object.name := by
  induction os generalizing lo with
  | nil => exact ⟨trivial, rfl, rfl⟩
  | cons o os ih =>
    have hw := h o (by simp)
    have hc : countsOf ((ObjAst.mk o.name (writeItems o)).shift lo).items = countsIn o := by
      rw [ObjAst.shift, countsOf_shift]; exact countsOf_write hw
    obtain ⟨i1, i2, i3⟩ := ih (lo := lo + countsIn o) fun x hx => h x (by simp [hx])
    have hz : ({} : Counts) + lo = lo := counts_zero_add lo
    refine ⟨⟨?_, ?_, ?_⟩, ?_, ?_⟩
    · have := (validItems_shift (c := lo)).mpr (writeItems_valid hw)
      rwa [hz] at this
    · exact fun hb => write_not_bare hw (bare_shift.mp hb)
    · rw [hc]; exact i1
    · rw [writeObjects, objectsMeaning, hc, i2]
      congr 1
      have := objMeaning_shift (F := F) {} lo ⟨o.name, writeItems o⟩
      rw [hz] at this
      rw [this, written_object hw]
    · rw [writeObjects, List.map_cons, List.map_cons, i3]; rfl

/-- **C89** Every well-formed object set is the result of reading the file written for it. -/
theorem C89_writer {r : ObjectSet F} (h : WellFormedSet r) (hlen : (write r).text.length < 2 ^ 63) :
    Obj.parse cfg (write r).text = .ok r := by
  obtain ⟨g1, g2, g3⟩ := write_good (lo := {}) h.objects
  have hv : ValidFile (write r) := by
    refine validFile_iff.mpr ⟨h.libraries, ?_, ?_, g1⟩
    · simp only [write, g3]; exact h.first
    · simp only [write, g3]; exact h.others
  rw [C28_write_read hv hlen]
  simp only [meaning, write, g2]

/-- **C89** A result that is written and read again is the same. -/
theorem C89_write_read {r : ObjectSet F} (hlen : input.length < 2 ^ 63) (h : Obj.parse cfg input = .ok r)
    (hlen' : (write r).text.length < 2 ^ 63) : Obj.parse cfg (write r).text = .ok r :=
  C89_writer (C89_results hlen h) hlen'

/-- **C89** Which object sets can be results. -/
theorem C89_iff {r : ObjectSet F} (hlen : (write r).text.length < 2 ^ 63) :
    (∃ input, input.length < 2 ^ 63 ∧ Obj.parse cfg input = .ok r) ↔ WellFormedSet r :=
  ⟨fun ⟨_, h1, h2⟩ => C89_results h1 h2, fun h => ⟨_, hlen, C89_writer h hlen⟩⟩

/-- **C89** Which material sets can be results: those in which all names are tokens. -/
theorem C89_materials {ms : Mtl.MaterialSet F} : (∃ input, Mtl.parse input = .ok ms) ↔
    ∀ m ∈ ms.materials, ∀ n ∈ materialNames m, IsToken n := by
  refine ⟨fun ⟨input, h⟩ => ?_, fun h => ⟨_, C71_values ms h⟩⟩
  obtain ⟨mats, hv, rfl, -⟩ := C71_normal_form h
  intro m hm
  obtain ⟨a, ha, rfl⟩ := List.mem_map.mp hm
  exact names_valid (hv a ha)

end

/-- The file written for the sample result. -/
example : (write sampleResult).text =
    b!"mtllib a.mtl b.mtl\nv 0 0 0 1\nv 1 0 0 2\nv 1 1 0 1\nv 0 1 0 1\nvt 0 1 0\nvn 0 0 1\n" ++
    b!"usemtl red\ng\ng left top\ns 1\nf 1/1/1 2/1/1 3/1/1\nf 1/1/1 3/1/1 4/1/1\ng\ng\n" ++
    b!"l 1//1 2//1\nl 2//1 3//1\np 1\np 2\ng\no second\nv 5 5 5 1\ng\ng default\ns 0\np 5\n" ++
    b!"usemtl blue\ns 0\np 5\np 5\ng\n" := by decide +kernel

/-- The hypotheses hold of the sample, with text as numbers and with `f64`. -/
example : ∃ r : ObjectSet NumText, Obj.parse debug sample = .ok r ∧ r.objects.length = 2 ∧
    WellFormedSet r ∧ Obj.parse debug (write r).text = .ok r := by
  have h : (match (Obj.parse debug sample : Out ErrorKind (ObjectSet NumText)) with
      | .ok r => r.objects.length == 2 && decide ((write r).text.length < 2 ^ 63)
      | _ => false) = true := by decide +kernel
  split at h
  · next r hr =>
    simp only [Bool.and_eq_true, beq_iff_eq, decide_eq_true_eq] at h
    have hlen : sample.length < 2 ^ 63 := by decide +kernel
    exact ⟨r, hr, h.1, C89_results hlen hr, C89_write_read hlen hr h.2⟩
  · simp at h

example {input : Bytes} {r : ObjectSet F64} (hlen : input.length < 2 ^ 63) (h : Obj.parse release input = .ok r)
    (hlen' : (write r).text.length < 2 ^ 63) : Obj.parse release (write r).text = .ok r :=
  C89_write_read hlen h hlen'

/-- Three points; the second is in no group, the third again in the group of the first. -/
def groupsReturn : Object Bytes where
  name := b!"o"
  vertex_set := [⟨b!"0", b!"0", b!"0", b!"1"⟩]
  texture_vertex_set := []
  normal_vertex_set := []
  group_set := [⟨b!"a"⟩]
  smoothing_group_set := [⟨0⟩]
  element_set := [.Point (.V 0), .Point (.V 0), .Point (.V 0)]
  shape_set := [⟨0, [0], 0⟩, ⟨1, [], 0⟩, ⟨2, [0], 0⟩]
  geometry_set := [⟨none, [0, 1, 2]⟩]

/-- No text gives it. -/
example (input : Bytes) (hlen : input.length < 2 ^ 63) : Obj.parse debug input ≠ .ok ⟨[], [groupsReturn]⟩ := by
  intro h
  obtain ⟨k, cur, hr, -⟩ := ((C89_results hlen h).objects groupsReturn (by simp)).groups
  have no : ∀ {k cur k' cur'}, 0 < k → cur = [] → ¬ GroupRun k cur [⟨2, [0], 0⟩] k' cur' := by
    intro k cur k' cur' hk hc h
    cases h with
    | same _ he _ => rw [hc] at he; simp at he
    | @new _ _ _ _ _ _ start n h1 _ he _ =>
      rcases n with _ | n
      · simp at he
      · rw [List.range'_succ] at he; simp at he; omega
  cases hr with
  | same h0 _ _ => omega
  | @new _ _ _ _ _ _ start n h1 h2 he hr =>
    have hn : start + n = 1 := by
      rcases n with _ | _ | n <;> simp [List.range'_succ] at he
      omega
    rw [hn] at hr
    cases hr with
    | same _ he _ => simp at he
    | @new _ _ _ _ _ _ start n h1 h2 he hr => exact no h2 rfl hr

end Verif.Props
