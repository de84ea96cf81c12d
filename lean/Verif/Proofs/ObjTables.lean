import Verif.Proofs.ObjBody

/-!
# The tables of the object parser

The code records, for groups, smoothing groups and materials, which ranges of
elements they apply to, and resolves the ranges at the end of the object.  Here
this is proved equal to tagging every element at once, as the specification does.
-/

namespace Verif.Obj

open Verif Verif.Spec.Obj

/-! ## Range tables -/

/-- The tag of each position covered by a table of ranges. -/
def flat {β : Type} (t : List ((Nat × Nat) × β)) : List β :=
  t.flatMap fun e => List.replicate (e.1.2 - e.1.1) e.2

/-- The ranges of the table follow each other from `a` to `b`. -/
def Chain {β : Type} : Nat → List ((Nat × Nat) × β) → Nat → Prop
  | a, [], b => a = b
  | a, e :: t, b => e.1.1 = a ∧ a ≤ e.1.2 ∧ Chain e.1.2 t b

section
variable {β : Type}

theorem Chain.snoc {a b c : Nat} {t : List ((Nat × Nat) × β)} (h : Chain a t b) (hc : b ≤ c) (x : β) :
    Chain a (t ++ [((b, c), x)]) c := by
  induction t generalizing a with
  | nil => simp only [Chain] at h; subst h; exact ⟨rfl, hc, rfl⟩
  | cons e t ih => exact ⟨h.1, h.2.1, ih h.2.2⟩

theorem Chain.le {a b : Nat} {t : List ((Nat × Nat) × β)} (h : Chain a t b) : a ≤ b := by
  induction t generalizing a with
  | nil => simp only [Chain] at h; omega
  | cons e t ih => have := ih h.2.2; have := h.2.1; omega

theorem Chain.flat_length {a b : Nat} {t : List ((Nat × Nat) × β)} (h : Chain a t b) :
    (flat t).length = b - a := by
  induction t generalizing a with
  | nil => simp only [Chain] at h; subst h; simp [flat]
  | cons e t ih =>
    have h1 := ih h.2.2
    have h2 := h.2.2.le
    have h3 := h.1
    have h4 := h.2.1
    simp only [flat, List.flatMap_cons, List.length_append, List.length_replicate] at h1 ⊢
    omega

theorem flat_append (t t' : List ((Nat × Nat) × β)) : flat (t ++ t') = flat t ++ flat t' := by
  simp [flat]

theorem flat_one (a b : Nat) (x : β) : flat [((a, b), x)] = List.replicate (b - a) x := by
  simp [flat]

theorem flat_extend (t : List ((Nat × Nat) × β)) {m n : Nat} (h : m ≤ n) (k : Nat) (x : β) :
    flat (t ++ [((m, n + k), x)]) = flat (t ++ [((m, n), x)]) ++ List.replicate k x := by
  rw [flat_append, flat_append, flat_one, flat_one, List.append_assoc, List.replicate_append_replicate]
  congr 2
  omega

theorem flat_empty (t : List ((Nat × Nat) × β)) (n : Nat) (x : β) :
    flat (t ++ [((n, n), x)]) = flat t := by
  rw [flat_append, flat_one]; simp

end

/-! ## Shapes -/

theorem shapesOfGroups_eq {a b : Nat} {t : List ((Nat × Nat) × (Nat × Nat))} (h : Chain a t b) :
    shapesOfGroups t = (flat t).mapIdx fun i g =>
      { element := a + i, groups := rangeVec g.1 g.2, smoothing_group := 0 } := by
  induction t generalizing a with
  | nil => rfl
  | cons e t ih =>
    obtain ⟨rfl, h2, h3⟩ := h
    have h1 := ih h3
    simp only [shapesOfGroups, flat, List.flatMap_cons] at h1 ⊢
    rw [h1, List.mapIdx_append]
    simp only [List.length_replicate]
    congr 1
    · simp only [rangeVec]
      apply List.ext_getElem
      · simp
      · intro i hi _
        simp
    · congr 1
      funext i g
      congr 1
      omega

theorem setSmoothing_at (pre post : List ShapeEntry) (e : ShapeEntry) (sg : Nat) :
    setSmoothing (pre ++ e :: post) pre.length sg =
      some (pre ++ { e with smoothing_group := sg } :: post) := by
  unfold setSmoothing
  rw [if_pos (by simp)]
  congr 1
  induction pre with
  | nil => rfl
  | cons x pre ih => simp [List.modify_succ_cons, ih]

theorem setRange (m : List ShapeEntry) (pre post : List ShapeEntry) (sg : Nat) :
    (List.range' pre.length m.length).foldlM (fun table i => setSmoothing table i sg)
      (pre ++ (m ++ post)) =
      some (pre ++ (m.map (fun e => { e with smoothing_group := sg }) ++ post)) := by
  induction m generalizing pre with
  | nil => simp
  | cons e m ih =>
    simp only [List.length_cons, List.range'_succ, List.foldlM_cons, List.cons_append, List.map_cons]
    rw [setSmoothing_at]
    have := ih (pre ++ [{ e with smoothing_group := sg }])
    simp only [List.length_append, List.length_singleton, List.append_assoc, List.singleton_append] at this
    simpa using this

theorem applySmoothing_eq {b : Nat} {s : List ((Nat × Nat) × Nat)} (pre m post : List ShapeEntry)
    (h : Chain pre.length s b) (hm : m.length = b - pre.length) :
    applySmoothing (pre ++ (m ++ post)) s = some (pre ++
      (List.zipWith (fun e sg => { e with smoothing_group := sg }) m (flat s) ++ post)) := by
  induction s generalizing pre m with
  | nil =>
    simp only [Chain] at h
    have : m = [] := by
      rw [← List.length_eq_zero_iff]; omega
    subst this
    simp [applySmoothing]
  | cons e s ih =>
    obtain ⟨h1, h2, h3⟩ := h
    have h4 := h3.le
    have hsplit := List.take_append_drop (e.1.2 - e.1.1) m
    have hl1 : (m.take (e.1.2 - e.1.1)).length = e.1.2 - e.1.1 := by simp; omega
    have hl2 : (m.drop (e.1.2 - e.1.1)).length = b - e.1.2 := by simp; omega
    generalize m.take (e.1.2 - e.1.1) = m1 at *
    generalize m.drop (e.1.2 - e.1.1) = m2 at *
    subst hsplit
    have h5 := setRange m1 pre (m2 ++ post) e.2
    unfold applySmoothing at ih ⊢
    rw [List.foldlM_cons]
    simp only [rangeVec]
    rw [h1, show e.1.2 - pre.length = m1.length by omega, List.append_assoc, h5]
    have hlen : (pre ++ m1.map (fun x : ShapeEntry => { x with smoothing_group := e.2 })).length = e.1.2 := by
      simp only [List.length_append, List.length_map]; omega
    have h6 := ih (pre ++ m1.map (fun x : ShapeEntry => { x with smoothing_group := e.2 })) m2
      (by rw [hlen]; exact h3) (by rw [hlen]; exact hl2)
    simp only [List.append_assoc] at h6
    simp only [Option.bind_eq_bind, Option.bind_some]
    simp only [rangeVec] at h6
    rw [h6]
    congr 2
    rw [show flat (e :: s) = List.replicate m1.length e.2 ++ flat s by simp [flat, hl1]]
    rw [List.zipWith_append (by simp), List.append_assoc]
    congr 1
    apply List.ext_getElem
    · simp
    · intro i _ _; simp

/-- Shape entries from the tags of all elements. -/
def mkShapes (gs : List (Nat × Nat)) (ss : List Nat) : List ShapeEntry :=
  (gs.zip ss).mapIdx fun i p =>
    { element := i, groups := rangeVec p.1.1 p.1.2, smoothing_group := p.2 }

theorem mkShapes_snoc {gs : List (Nat × Nat)} {ss : List Nat} {n : Nat} (h1 : gs.length = n)
    (h2 : ss.length = n) (k : Nat) (g : Nat × Nat) (s : Nat) :
    mkShapes (gs ++ List.replicate k g) (ss ++ List.replicate k s) =
      mkShapes gs ss ++ (List.range' n k).map fun i =>
        { element := i, groups := rangeVec g.1 g.2, smoothing_group := s } := by
  subst h1
  unfold mkShapes
  rw [List.zip_append (by omega), List.mapIdx_append]
  congr 1
  apply List.ext_getElem
  · simp
  · intro i _ _
    simp [h2]
    omega

theorem mkShapes_length (gs : List (Nat × Nat)) (ss : List Nat) :
    (mkShapes gs ss).length = min gs.length ss.length := by
  simp [mkShapes]

theorem shape_entries_eq (cfg : Cfg) {n : Nat} {es : List Element} (hn : es.length = n)
    {g : List ((Nat × Nat) × (Nat × Nat))} {s : List ((Nat × Nat) × Nat)}
    (hg : Chain 0 g n) (hs : Chain 0 s n) :
    parse_shape_entries cfg es g s = .ok (mkShapes (flat g) (flat s)) := by
  have h1 := shapesOfGroups_eq hg
  have h2 := hg.flat_length
  have h3 := hs.flat_length
  have hl : (shapesOfGroups g).length = n := by rw [h1]; simp [h2]
  have h4 := applySmoothing_eq (s := s) (b := n) [] (shapesOfGroups g) [] hs (by simpa using hl)
  simp only [List.nil_append, List.append_nil] at h4
  unfold parse_shape_entries
  simp only [hl, hn, ne_eq, not_true_eq_false, and_false, if_false, h4]
  rw [if_neg (by simp [hl, h3])]
  congr 1
  rw [h1]
  unfold mkShapes
  apply List.ext_getElem
  · simp
  · intro i _ _
    simp

/-! ## The invariant -/

section
variable {F : Type} [FloatSem F]

/-- Look up the geometries of a table. -/
def geos (names : List (Option Bytes)) (t : List ((Nat × Nat) × Nat)) : Option (List Geometry) :=
  t.mapM fun e => do
    let material_name ← names[e.2]?
    some { material_name := material_name, shapes := rangeVec e.1.1 e.1.2 : Geometry }

theorem geos_snoc {names : List (Option Bytes)} {t : List ((Nat × Nat) × Nat)} {l : List Geometry}
    (h : geos names t = some l) {e : (Nat × Nat) × Nat} {m : Option Bytes} (hm : names[e.2]? = some m) :
    geos names (t ++ [e]) = some (l ++ [⟨m, rangeVec e.1.1 e.1.2⟩]) := by
  unfold geos at h ⊢
  rw [List.mapM_append, h]
  simp [hm]

theorem geos_mono {names : List (Option Bytes)} {t : List ((Nat × Nat) × Nat)} {l : List Geometry}
    (h : geos names t = some l) (x : List (Option Bytes)) : geos (names ++ x) t = some l := by
  induction t generalizing l with
  | nil => exact h
  | cons e t ih =>
    simp only [geos, List.mapM_cons] at h ih ⊢
    simp only [Option.bind_eq_bind, Option.bind_eq_some_iff, Option.pure_def] at h ⊢
    obtain ⟨g, ⟨m, h1, h2⟩, l', h3, h4⟩ := h
    refine ⟨g, ⟨m, ?_, h2⟩, l', ih h3, h4⟩
    have : e.2 < names.length := by
      rw [List.getElem?_eq_some_iff] at h1; exact h1.1
    rw [List.getElem?_append_left this]
    exact h1

/-- The relation between the state of the code and the state of the specification. -/
structure Inv (lo : Counts) (st : ObjState F) (a : Acc F) : Prop where
  vertices : st.vertices = a.vertices
  textures : st.texture_vertices = a.textures
  normals : st.normal_vertices = a.normals
  elements : st.elements = a.elements
  groups : st.groups = a.groups
  smoothing : st.smoothing_groups = a.smoothing
  ctr : st.ctr = ⟨lo.v, lo.v + a.vertices.length, lo.vt, lo.vt + a.textures.length,
    lo.vn, lo.vn + a.normals.length⟩
  maxG : st.max_element_group_index = a.elements.length
  maxS : st.max_element_smoothing_group_index = a.elements.length
  maxM : st.max_element_material_name_index = a.elements.length
  inGroups : a.inGroups = rangeVec st.min_group_index st.max_group_index
  maxGroup : st.max_group_index = a.groups.length
  noGroups : a.groups = [] → a.elements = [] ∧ st.min_group_index = 0
  chainG : Chain 0 st.group_entry_table st.min_element_group_index
  minG : st.min_element_group_index ≤ a.elements.length
  inSmoothing : a.inSmoothing = st.smoothing_group_index
  lastSmoothing : a.smoothing ≠ [] → st.smoothing_group_index + 1 = a.smoothing.length
  noSmoothing : a.smoothing = [] → a.elements = [] ∧ st.smoothing_group_index = 0
  chainS : Chain 0 st.smoothing_group_entry_table st.min_element_smoothing_group_index
  minS : st.min_element_smoothing_group_index ≤ a.elements.length
  shapes : a.shapes = mkShapes
    (flat (st.group_entry_table ++ [((st.min_element_group_index, a.elements.length),
      (st.min_group_index, st.max_group_index))]))
    (flat (st.smoothing_group_entry_table ++ [((st.min_element_smoothing_group_index,
      a.elements.length), st.smoothing_group_index)]))
  minM : st.min_element_material_name_index ≤ a.elements.length
  ofMaterial : a.ofMaterial = rangeVec st.min_element_material_name_index a.elements.length
  noNames : st.material_names = [] →
    a.elements = [] ∧ a.material = none ∧ st.material_name_index = 0
  lastName : st.material_names ≠ [] → st.material_name_index + 1 = st.material_names.length ∧
    st.material_names[st.material_name_index]? = some a.material
  geometries : geos st.material_names st.material_name_entry_table = some a.geometries

omit [FloatSem F] in
theorem Inv.init (lo : Counts) :
    Inv lo ({ ctr := ⟨lo.v, lo.v, lo.vt, lo.vt, lo.vn, lo.vn⟩ } : ObjState F) {} where
  vertices := rfl
  textures := rfl
  normals := rfl
  elements := rfl
  groups := rfl
  smoothing := rfl
  ctr := rfl
  maxG := rfl
  maxS := rfl
  maxM := rfl
  inGroups := rfl
  maxGroup := rfl
  noGroups := fun _ => ⟨rfl, rfl⟩
  chainG := rfl
  minG := Nat.le_refl _
  inSmoothing := rfl
  lastSmoothing := fun h => absurd rfl h
  noSmoothing := fun _ => ⟨rfl, rfl⟩
  chainS := rfl
  minS := Nat.le_refl _
  shapes := rfl
  minM := Nat.le_refl _
  ofMaterial := rfl
  noNames := fun _ => ⟨rfl, rfl, rfl⟩
  lastName := fun h => absurd rfl h
  geometries := rfl

/-- The default group. -/
def defG (st : ObjState F) : ObjState F :=
  if st.groups.isEmpty then
    { st with groups := st.groups ++ [Group.default], min_group_index := 0, max_group_index := 1 }
  else st

/-- The default smoothing group. -/
def defS (st : ObjState F) : ObjState F :=
  if st.smoothing_groups.isEmpty then
    { st with
      smoothing_groups := st.smoothing_groups ++ [SmoothingGroup.default]
      smoothing_group_index := 0 }
  else st

/-- The default material. -/
def defM (st : ObjState F) : ObjState F :=
  if st.material_names.isEmpty then
    { st with material_names := st.material_names ++ [none], material_name_index := 0 }
  else st

omit [FloatSem F] in
theorem fillDefaults_eq (st : ObjState F) : fillDefaults st = defM (defS (defG st)) := rfl

def accG (a : Acc F) : Acc F :=
  if a.groups = [] then { a with groups := [⟨b!"default"⟩], inGroups := [0] } else a

def accS (a : Acc F) : Acc F :=
  if a.smoothing = [] then { a with smoothing := [⟨0⟩], inSmoothing := 0 } else a

omit [FloatSem F] in
theorem defaults_eq (a : Acc F) : a.defaults = accS (accG a) := rfl

omit [FloatSem F] in
theorem Inv.defG {lo : Counts} {st : ObjState F} {a : Acc F} (h : Inv lo st a) :
    Inv lo (defG st) (accG a) := by
  unfold Obj.defG accG
  by_cases hg : a.groups = []
  · have hg' : st.groups = [] := by rw [h.groups, hg]
    have he := (h.noGroups hg).1
    simp only [hg, hg', List.isEmpty_nil, if_true]
    have hm : st.min_element_group_index = 0 := by
      have := h.minG; rw [he] at this; simpa using this
    exact { h with
      groups := rfl
      inGroups := rfl
      maxGroup := rfl
      noGroups := fun h => by simp at h
      shapes := by
        have := h.shapes
        simp only [he, hm, List.length_nil] at this ⊢
        rw [flat_empty] at this ⊢
        exact this }
  · have hg' : st.groups.isEmpty = false := by rw [h.groups]; simpa using hg
    simp only [hg, hg', if_false, Bool.false_eq_true]
    exact h

omit [FloatSem F] in
theorem Inv.defS {lo : Counts} {st : ObjState F} {a : Acc F} (h : Inv lo st a) :
    Inv lo (defS st) (accS a) := by
  unfold Obj.defS accS
  by_cases hg : a.smoothing = []
  · have hg' : st.smoothing_groups = [] := by rw [h.smoothing, hg]
    obtain ⟨he, hi⟩ := h.noSmoothing hg
    simp only [hg, hg', List.isEmpty_nil, if_true]
    exact { h with
      smoothing := rfl
      inSmoothing := rfl
      lastSmoothing := fun _ => rfl
      noSmoothing := fun h => by simp at h
      shapes := by have := h.shapes; rw [hi] at this; exact this }
  · have hg' : st.smoothing_groups.isEmpty = false := by rw [h.smoothing]; simpa using hg
    simp only [hg, hg', if_false, Bool.false_eq_true]
    exact h

omit [FloatSem F] in
theorem Inv.defM {lo : Counts} {st : ObjState F} {a : Acc F} (h : Inv lo st a) :
    Inv lo (defM st) a := by
  unfold Obj.defM
  by_cases hg : st.material_names = []
  · obtain ⟨he, hm, hi⟩ := h.noNames hg
    have hge := geos_mono h.geometries [none]
    simp only [hg, List.isEmpty_nil, if_true] at hge ⊢
    exact { h with
      noNames := fun h => by simp at h
      lastName := fun _ => ⟨rfl, by simp [hm]⟩
      geometries := hge }
  · have hg' : st.material_names.isEmpty = false := by simpa using hg
    simp only [hg', if_false, Bool.false_eq_true]
    exact h

omit [FloatSem F] in
/-- The state right before elements are added. -/
theorem Inv.defaults {lo : Counts} {st : ObjState F} {a : Acc F} (h : Inv lo st a) :
    Inv lo (fillDefaults st) a.defaults := by
  rw [fillDefaults_eq, defaults_eq]
  exact h.defG.defS.defM

omit [FloatSem F] in
theorem fillDefaults_ne (st : ObjState F) :
    (fillDefaults st).groups ≠ [] ∧ (fillDefaults st).smoothing_groups ≠ [] ∧
      (fillDefaults st).material_names ≠ [] := by
  simp only [fillDefaults]
  repeat' split
  all_goals simp_all

omit [FloatSem F] in
theorem Inv.addElements {lo : Counts} {st : ObjState F} {a : Acc F} (h : Inv lo st a)
    (hg : st.groups ≠ []) (hs : st.smoothing_groups ≠ []) (hm : st.material_names ≠ [])
    (es : List Element) :
    Inv lo { st with
        elements := st.elements ++ es
        max_element_group_index := st.max_element_group_index + es.length
        max_element_smoothing_group_index := st.max_element_smoothing_group_index + es.length
        max_element_material_name_index := st.max_element_material_name_index + es.length }
      (a.addElements es) where
  vertices := h.vertices
  textures := h.textures
  normals := h.normals
  elements := by simp [Acc.addElements, h.elements]
  groups := h.groups
  smoothing := h.smoothing
  ctr := h.ctr
  maxG := by simp [Acc.addElements, h.maxG]
  maxS := by simp [Acc.addElements, h.maxS]
  maxM := by simp [Acc.addElements, h.maxM]
  inGroups := h.inGroups
  maxGroup := h.maxGroup
  noGroups := fun e => absurd (h.groups.trans e) hg
  chainG := h.chainG
  minG := by have := h.minG; simp only [Acc.addElements, List.length_append]; omega
  inSmoothing := h.inSmoothing
  lastSmoothing := h.lastSmoothing
  noSmoothing := fun e => absurd (h.smoothing.trans e) hs
  chainS := h.chainS
  minS := by have := h.minS; simp only [Acc.addElements, List.length_append]; omega
  shapes := by
    simp only [Acc.addElements, List.length_append]
    rw [flat_extend _ h.minG, flat_extend _ h.minS]
    rw [mkShapes_snoc (n := a.elements.length)
      (by rw [(h.chainG.snoc h.minG _).flat_length]; omega)
      (by rw [(h.chainS.snoc h.minS _).flat_length]; omega)]
    rw [← h.shapes, h.inGroups, h.inSmoothing]
  minM := by have := h.minM; simp only [Acc.addElements, List.length_append]; omega
  ofMaterial := by
    have := h.minM
    simp only [Acc.addElements, List.length_append, h.ofMaterial, rangeVec]
    rw [show a.elements.length + es.length - st.min_element_material_name_index
      = (a.elements.length - st.min_element_material_name_index) + es.length by omega]
    rw [← List.range'_append_1]
    congr 2
    omega
  noNames := fun e => absurd e hm
  lastName := h.lastName
  geometries := h.geometries

theorem Inv.step {lo : Counts} {st : ObjState F} {a : Acc F} (h : Inv lo st a) (it : Item) :
    Inv lo (applyItem lo st it) (a.step lo it) := by
  have helem : ∀ es : List Element, Inv lo { fillDefaults st with
        elements := (fillDefaults st).elements ++ es
        max_element_group_index := (fillDefaults st).max_element_group_index + es.length
        max_element_smoothing_group_index :=
          (fillDefaults st).max_element_smoothing_group_index + es.length
        max_element_material_name_index :=
          (fillDefaults st).max_element_material_name_index + es.length }
      (a.defaults.addElements es) := fun es =>
    h.defaults.addElements (fillDefaults_ne st).1 (fillDefaults_ne st).2.1 (fillDefaults_ne st).2.2 es
  cases it with
  | v x y z w =>
    exact { h with
      vertices := by simp [applyItem, Acc.step, h.vertices]
      ctr := by simp [applyItem, Acc.step, h.ctr, Nat.add_assoc] }
  | vt u v w =>
    exact { h with
      textures := by simp [applyItem, Acc.step, h.textures]
      ctr := by simp [applyItem, Acc.step, h.ctr, Nat.add_assoc] }
  | vn x y z =>
    exact { h with
      normals := by simp [applyItem, Acc.step, h.normals]
      ctr := by simp [applyItem, Acc.step, h.ctr, Nat.add_assoc] }
  | g names =>
    simp only [applyItem, Acc.step]
    by_cases hg : a.groups = []
    · have hg' : st.groups = [] := by rw [h.groups, hg]
      obtain ⟨he, hmin⟩ := h.noGroups hg
      have hmax : st.max_group_index = 0 := by rw [h.maxGroup, hg]; rfl
      have hm : st.min_element_group_index = 0 := by
        have := h.minG; rw [he] at this; simpa using this
      simp only [hg, hg', List.isEmpty_nil, if_true, List.nil_append, List.length_nil]
      exact { h with
        groups := rfl
        inGroups := by simp [rangeVec, hmin, hmax]
        maxGroup := by simp [hmax]
        noGroups := fun _ => ⟨he, hmin⟩
        shapes := by
          have := h.shapes
          simp only [he, hm, List.length_nil] at this ⊢
          rw [flat_empty] at this ⊢
          exact this }
    · have hg' : st.groups.isEmpty = false := by rw [h.groups]; simpa using hg
      simp only [hg', if_false, Bool.false_eq_true]
      exact { h with
        groups := by rw [h.groups]
        inGroups := by simp [rangeVec, h.maxGroup]
        maxGroup := by simp [h.maxGroup]
        noGroups := fun e => by simp [hg] at e
        chainG := by
          have := h.chainG.snoc h.minG (st.min_group_index, st.max_group_index)
          rw [← h.maxG] at this
          exact this
        minG := by simp only [h.maxG]; exact Nat.le_refl _
        shapes := by
          have := h.shapes
          simp only [h.maxG]
          rw [flat_empty]
          exact this }
  | s n =>
    simp only [applyItem, Acc.step]
    by_cases hg : a.smoothing = []
    · have hg' : st.smoothing_groups = [] := by rw [h.smoothing, hg]
      obtain ⟨he, hi⟩ := h.noSmoothing hg
      simp only [hg, hg', List.isEmpty_nil, if_true, List.nil_append, List.length_nil]
      exact { h with
        smoothing := rfl
        inSmoothing := rfl
        lastSmoothing := fun _ => rfl
        noSmoothing := fun h => by simp at h
        shapes := by have := h.shapes; rw [hi] at this; exact this }
    · have hg' : st.smoothing_groups.isEmpty = false := by rw [h.smoothing]; simpa using hg
      have hl := h.lastSmoothing hg
      simp only [hg', if_false, Bool.false_eq_true]
      exact { h with
        smoothing := by rw [h.smoothing]
        inSmoothing := hl.symm
        lastSmoothing := fun _ => by simp [hl]
        noSmoothing := fun h => by simp at h
        chainS := by
          have := h.chainS.snoc h.minS st.smoothing_group_index
          rw [← h.maxS] at this
          exact this
        minS := by simp only [h.maxS]; exact Nat.le_refl _
        shapes := by
          have := h.shapes
          simp only [h.maxS]
          rw [flat_empty]
          exact this }
  | usemtl name =>
    have hmm := h.minM
    have hof : a.ofMaterial = [] ↔ st.min_element_material_name_index = st.max_element_material_name_index := by
      rw [h.ofMaterial, h.maxM, ← List.length_eq_zero_iff]
      simp only [rangeVec, List.length_range']
      omega
    have hidx : (if st.material_names.isEmpty then st.material_name_index
        else st.material_name_index + 1) = st.material_names.length := by
      by_cases hn : st.material_names = []
      · simp [hn, (h.noNames hn).2.2]
      · have : st.material_names.isEmpty = false := by simpa using hn
        simp [this, (h.lastName hn).1]
    have hgeo := geos_mono h.geometries [some name]
    simp only [applyItem, Acc.step, hidx]
    by_cases hof' : a.ofMaterial = []
    · simp only [hof', if_true, hof.1 hof']
      exact { h with
        minM := by simp only [h.maxM]; exact Nat.le_refl _
        ofMaterial := by simp [h.maxM, rangeVec]
        noNames := fun h => by simp at h
        lastName := fun _ => by simp
        geometries := hgeo }
    · have hne : st.min_element_material_name_index ≠ st.max_element_material_name_index :=
        fun e => hof' (hof.2 e)
      simp only [hof', if_false, hne]
      have hn : st.material_names ≠ [] := by
        intro hn
        rw [h.ofMaterial, (h.noNames hn).1] at hof'
        simp [rangeVec] at hof'
      have hl := (h.lastName hn).2
      have hlt : st.material_name_index < st.material_names.length := by
        have := (h.lastName hn).1; omega
      exact { h with
        minM := by simp only [h.maxM]; exact Nat.le_refl _
        ofMaterial := by simp [h.maxM, rangeVec]
        noNames := fun h => by simp at h
        lastName := fun _ => by simp
        geometries := by
          have := geos_snoc hgeo (e := ((st.min_element_material_name_index,
            st.max_element_material_name_index), st.material_name_index)) (m := a.material)
            (by rw [List.getElem?_append_left hlt]; exact hl)
          rw [h.ofMaterial, ← h.maxM]
          exact this }
  | p is => exact helem _
  | l refs => exact helem _
  | f refs => exact helem _

theorem Inv.fold {lo : Counts} (items : List Item) {st : ObjState F} {a : Acc F} (h : Inv lo st a) :
    Inv lo (items.foldl (applyItem lo) st) (items.foldl (Acc.step lo) a) := by
  induction items generalizing st a with
  | nil => exact h
  | cons it items ih => exact ih (h.step it)

/-! ## The end of an object -/

theorem material_names_step (lo : Counts) (st : ObjState F) (it : Item) :
    (applyItem lo st it).material_names = [] ↔
      st.material_names = [] ∧ it.isElement = false ∧ it.isUsemtl = false := by
  cases it with
  | g => simp only [applyItem]; split <;> simp [Item.isElement, Item.isUsemtl]
  | s => simp only [applyItem]; split <;> simp [Item.isElement, Item.isUsemtl]
  | p => simp [applyItem, (fillDefaults_ne st).2.2, Item.isElement]
  | l => simp [applyItem, (fillDefaults_ne st).2.2, Item.isElement]
  | f => simp [applyItem, (fillDefaults_ne st).2.2, Item.isElement]
  | _ => simp [applyItem, Item.isElement, Item.isUsemtl]

theorem material_names_fold (lo : Counts) (items : List Item) (st : ObjState F) :
    (items.foldl (applyItem lo) st).material_names = [] ↔ st.material_names = [] ∧ Bare items := by
  induction items generalizing st with
  | nil => simp [Bare]
  | cons it items ih =>
    rw [List.foldl_cons, ih, material_names_step]
    simp [Bare, and_assoc]

/-- The state with which an object starts. -/
def start (lo : Counts) : ObjState F := { ctr := ⟨lo.v, lo.v, lo.vt, lo.vt, lo.vn, lo.vn⟩ }

theorem counts_add (a b : Counts) : a + b = ⟨a.v + b.v, a.vt + b.vt, a.vn + b.vn⟩ := rfl

omit [FloatSem F] in
theorem defaults_data (a : Acc F) : a.defaults.vertices = a.vertices ∧
    a.defaults.textures = a.textures ∧ a.defaults.normals = a.normals ∧
    a.defaults.elements = a.elements ∧ a.defaults.shapes = a.shapes ∧
    a.defaults.geometries = a.geometries ∧ a.defaults.material = a.material ∧
    a.defaults.ofMaterial = a.ofMaterial := by
  simp only [Acc.defaults]
  repeat' split
  all_goals simp

theorem lengths_fold (lo : Counts) (items : List Item) (a : Acc F) :
    let r := items.foldl (Acc.step lo) a
    (⟨r.vertices.length, r.textures.length, r.normals.length⟩ : Counts) =
      items.foldl (fun c it => c + it.counts) ⟨a.vertices.length, a.textures.length, a.normals.length⟩ := by
  induction items generalizing a with
  | nil => rfl
  | cons it items ih =>
    simp only [List.foldl_cons]
    rw [ih]
    congr 1
    rw [counts_add]
    have hd := defaults_data a
    cases it with
    | usemtl => simp only [Acc.step]; split <;> simp [Item.counts]
    | _ => simp [Acc.step, Item.counts, Acc.addElements, hd]

theorem finish_ok (cfg : Cfg) (lo : Counts) (name : Bytes) {items : List Item} (hb : ¬ Bare items) :
    finishObject cfg name (closeTables (items.foldl (applyItem lo) (start lo : ObjState F))) =
      .ok (objMeaning lo ⟨name, items⟩,
        let c := lo + countsOf items
        ⟨c.v, c.v, c.vt, c.vt, c.vn, c.vn⟩) := by
  have h := Inv.fold items (Inv.init (F := F) lo)
  have hn : (items.foldl (applyItem lo) (start lo : ObjState F)).material_names ≠ [] := by
    rw [Ne, material_names_fold]; exact fun h => hb h.2
  have hlen := lengths_fold lo items ({} : Acc F)
  unfold objMeaning
  simp only [start] at hn ⊢
  simp only [finishObject]
  generalize List.foldl (applyItem lo) ({ ctr := ⟨lo.v, lo.v, lo.vt, lo.vt, lo.vn, lo.vn⟩ } : ObjState F) items = st at *
  generalize items.foldl (Acc.step lo) ({} : Acc F) = a at *
  have h1 := shape_entries_eq cfg (es := st.elements) (n := a.elements.length) (by rw [h.elements])
    (h.chainG.snoc h.minG (st.min_group_index, st.max_group_index))
    (h.chainS.snoc h.minS st.smoothing_group_index)
  have h2 := geos_snoc h.geometries (e := ((st.min_element_material_name_index,
    st.max_element_material_name_index), st.material_name_index)) (h.lastName hn).2
  simp only [closeTables]
  rw [h.maxG, h.maxS, h1, ← h.shapes]
  simp only [parse_geometries]
  unfold geos at h2
  rw [h2]
  have e : countsOf items = ⟨a.vertices.length, a.textures.length, a.normals.length⟩ := hlen.symm
  simp only [e, h.vertices, h.textures, h.normals, h.elements, h.groups, h.smoothing, h.maxM, ← h.ofMaterial]
  simp only [bumpCounters, h.ctr]
  rfl

theorem finish_panic (cfg : Cfg) (lo : Counts) (name : Bytes) {items : List Item} (hb : Bare items) :
    finishObject cfg name (closeTables (items.foldl (applyItem lo) (start lo : ObjState F))) =
      .panic .materialIndex := by
  have h := Inv.fold items (Inv.init (F := F) lo)
  have hn : (items.foldl (applyItem lo) (start lo : ObjState F)).material_names = [] := by
    rw [material_names_fold]; exact ⟨rfl, hb⟩
  simp only [start] at hn ⊢
  simp only [finishObject]
  generalize List.foldl (applyItem lo) ({ ctr := ⟨lo.v, lo.v, lo.vt, lo.vt, lo.vn, lo.vn⟩ } : ObjState F) items = st at *
  generalize items.foldl (Acc.step lo) ({} : Acc F) = a at *
  have h1 := shape_entries_eq cfg (es := st.elements) (n := a.elements.length) (by rw [h.elements])
    (h.chainG.snoc h.minG (st.min_group_index, st.max_group_index))
    (h.chainS.snoc h.minS st.smoothing_group_index)
  have h2 := h.geometries
  simp only [closeTables]
  rw [h.maxG, h.maxS, h1]
  simp only [parse_geometries]
  unfold geos at h2
  rw [List.mapM_append, h2]
  simp [hn]

end

end Verif.Obj
