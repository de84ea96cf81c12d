import Verif.Model.Compare
import Verif.Props.Edit
import Verif.Props.Materials
import Verif.Props.Objects
import Verif.Proofs.Floats

/-!
# Property C73

The derived `==` of what the parsers return.
-/

namespace Verif.Props

open Verif Verif.Spec

/-! ## Specification -/

section
variable {F : Type}

/-- All floating point numbers of an object, in the order of its fields. -/
def objectNumbers (o : Obj.Object F) : List F :=
  o.vertex_set.flatMap (fun p => [p.x, p.y, p.z, p.w]) ++
    o.texture_vertex_set.flatMap (fun p => [p.u, p.v, p.w]) ++
    o.normal_vertex_set.flatMap (fun p => [p.x, p.y, p.z])

def objectsNumbers (r : Obj.ObjectSet F) : List F := r.objects.flatMap objectNumbers

def colorNumbers (c : Mtl.Color F) : List F := [c.r, c.g, c.b]

/-- All floating point numbers of a material, in the order of its fields. -/
def materialNumbers (m : Mtl.Material F) : List F :=
  colorNumbers m.color_ambient ++ colorNumbers m.color_diffuse ++ colorNumbers m.color_specular ++
    colorNumbers m.color_emissive ++ [m.specular_exponent, m.dissolve] ++ m.optical_density.toList

def materialsNumbers (r : Mtl.MaterialSet F) : List F := r.materials.flatMap materialNumbers

/-- Everything but the numbers: `mapObjects` and `mapMaterial` (C61) with all numbers forgotten. -/
def objectsShape (r : Obj.ObjectSet F) : Obj.ObjectSet Unit := mapObjects (fun _ => ()) r

def materialsShape (r : Mtl.MaterialSet F) : Mtl.MaterialSet Unit :=
  ⟨r.materials.map (mapMaterial fun _ => ())⟩

end

/-- `nan` in any case, with or without a sign. -/
def NanToken (t : Bytes) : Prop := ∃ s r, t = s ++ r ∧ Sign s ∧ AnyCase b!"nan" r

/-- What is needed of `==` on `f64`: the only number different from itself is NaN, and a numeral
denotes NaN only if it says so. -/
class IeeeEq (F : Type) [FloatSem F] [FloatEq F] : Prop where
  value_self (t : Bytes) : isFloat t = true →
    (FloatEq.feq (FloatSem.value t : F) (FloatSem.value t) = true ↔ ¬ NanToken t)
  zero_self : FloatEq.feq (FloatSem.zero : F) FloatSem.zero = true
  one_self : FloatEq.feq (FloatSem.one : F) FloatSem.one = true

/-- The words of a statement that are numbers. -/
def numberWords : Obj.Item → List Tok
  | .v x y z w => [x, y, z] ++ w.toList
  | .vt u v w => [u] ++ v.toList ++ w.toList
  | .vn x y z => [x, y, z]
  | _ => []

def mtlNumberWords : Mtl.Item → List Tok
  | .color _ r g b => [r, g, b]
  | .num _ x => [x]
  | _ => []

/-- The statement is the last one about its attribute. -/
def Decides (m : Mtl.MatAst) (it : Mtl.Item) : Prop :=
  ∃ pre post, m.items = pre ++ it :: post ∧ ∀ x ∈ post, attr x ≠ attr it

/-! ## Equality in general -/

/-- A comparison `eq` is the equality of everything but numbers, and the comparison of the
numbers. -/
structure Splits {F α β : Type} [FloatEq F] (eq : α → α → Bool) (sh : α → β) (nums : α → List F) : Prop where
  iff (a b : α) : eq a b = true ↔ sh a = sh b ∧ List.Forall₂ (fun x y => FloatEq.feq x y = true) (nums a) (nums b)
  length (a b : α) : sh a = sh b → (nums a).length = (nums b).length

theorem forall₂_append_iff {α β : Type} {R : α → β → Prop} {a a' : List α} {b b' : List β}
    (h : a.length = b.length) :
    List.Forall₂ R (a ++ a') (b ++ b') ↔ List.Forall₂ R a b ∧ List.Forall₂ R a' b' := by
  induction a generalizing b with
  | nil => cases b with
    | nil => simp
    | cons => simp at h
  | cons x a ih => cases b with
    | nil => simp at h
    | cons y b =>
      simp only [List.length_cons, Nat.add_right_cancel_iff] at h
      simp only [List.cons_append, List.forall₂_cons, ih h, and_assoc]

theorem vecEq_cons {α : Type} (eq : α → α → Bool) (x y : α) (a b : List α) :
    vecEq eq (x :: a) (y :: b) = (eq x y && vecEq eq a b) := by
  simp only [vecEq, List.length_cons, List.zip_cons_cons, List.all_cons]
  rw [Bool.eq_iff_iff]
  simp only [Bool.and_eq_true, beq_iff_eq, Nat.add_right_cancel_iff]
  tauto

theorem flatMap_lengths {F α β : Type} {sh : α → β} {nums : α → List F}
    (h : ∀ a b, sh a = sh b → (nums a).length = (nums b).length) :
    ∀ {a b : List α}, a.map sh = b.map sh → (a.flatMap nums).length = (b.flatMap nums).length
  | [], [], _ => rfl
  | [], _ :: _, e => by simp at e
  | _ :: _, [], e => by simp at e
  | x :: a, y :: b, e => by
    simp only [List.map_cons, List.cons.injEq] at e
    simp only [List.flatMap_cons, List.length_append, h x y e.1, flatMap_lengths h e.2]

theorem Splits.vec {F α β : Type} [FloatEq F] {eq : α → α → Bool} {sh : α → β} {nums : α → List F}
    (h : Splits eq sh nums) : Splits (vecEq eq) (fun a => a.map sh) (fun a => a.flatMap nums) where
  iff a b := by
    induction a generalizing b with
    | nil => cases b <;> simp [vecEq]
    | cons x a ih => cases b with
      | nil => simp [vecEq]
      | cons y b =>
        rw [vecEq_cons, Bool.and_eq_true, ih, h.iff]
        simp only [List.map_cons, List.cons.injEq, List.flatMap_cons]
        constructor
        · rintro ⟨⟨h1, h2⟩, h3, h4⟩
          exact ⟨⟨h1, h3⟩, (forall₂_append_iff (h.length _ _ h1)).2 ⟨h2, h4⟩⟩
        · rintro ⟨⟨h1, h3⟩, h2⟩
          have := (forall₂_append_iff (h.length _ _ h1)).1 h2
          exact ⟨⟨h1, this.1⟩, h3, this.2⟩
  length _ _ e := flatMap_lengths h.length e

/-! ## Equality of objects -/

section
variable {F : Type} [FloatEq F]

theorem splits_vertex : Splits (F := F) Obj.Vertex.eq
    (fun _ => (⟨(), (), (), ()⟩ : Obj.Vertex Unit)) (fun p => [p.x, p.y, p.z, p.w]) :=
  ⟨fun a b => by simp [Obj.Vertex.eq, and_assoc], fun _ _ _ => rfl⟩

theorem splits_texture : Splits (F := F) Obj.TextureVertex.eq
    (fun _ => (⟨(), (), ()⟩ : Obj.TextureVertex Unit)) (fun p => [p.u, p.v, p.w]) :=
  ⟨fun a b => by simp [Obj.TextureVertex.eq, and_assoc], fun _ _ _ => rfl⟩

theorem splits_normal : Splits (F := F) Obj.NormalVertex.eq
    (fun _ => (⟨(), (), ()⟩ : Obj.NormalVertex Unit)) (fun p => [p.x, p.y, p.z]) :=
  ⟨fun a b => by simp [Obj.NormalVertex.eq, and_assoc], fun _ _ _ => rfl⟩

theorem splits_object : Splits (F := F) Obj.Object.eq (mapObject fun _ => ()) objectNumbers := by
  have hl : ∀ a b : Obj.Object F, mapObject (fun _ => ()) a = mapObject (fun _ => ()) b →
      (a.vertex_set.flatMap fun p => [p.x, p.y, p.z, p.w]).length =
        (b.vertex_set.flatMap fun p => [p.x, p.y, p.z, p.w]).length ∧
      (a.texture_vertex_set.flatMap fun p => [p.u, p.v, p.w]).length =
        (b.texture_vertex_set.flatMap fun p => [p.u, p.v, p.w]).length ∧
      (a.normal_vertex_set.flatMap fun p => [p.x, p.y, p.z]).length =
        (b.normal_vertex_set.flatMap fun p => [p.x, p.y, p.z]).length := by
    intro a b h
    simp only [mapObject, Obj.Object.mk.injEq] at h
    exact ⟨splits_vertex.vec.length _ _ h.2.1, splits_texture.vec.length _ _ h.2.2.1,
      splits_normal.vec.length _ _ h.2.2.2.1⟩
  refine ⟨fun a b => ?_, fun a b h => ?_⟩
  · simp only [Obj.Object.eq, Bool.and_eq_true, beq_iff_eq, splits_vertex.vec.iff, splits_texture.vec.iff,
      splits_normal.vec.iff]
    constructor
    · rintro ⟨⟨⟨⟨⟨⟨⟨⟨h1, h2, h2'⟩, h3, h3'⟩, h4, h4'⟩, h5⟩, h6⟩, h7⟩, h8⟩, h9⟩
      have e : mapObject (fun _ => ()) a = mapObject (fun _ => ()) b := by
        simp only [mapObject, Obj.Object.mk.injEq]
        exact ⟨h1, h2, h3, h4, h5, h6, h7, h8, h9⟩
      obtain ⟨l1, l2, l3⟩ := hl a b e
      refine ⟨e, ?_⟩
      rw [objectNumbers, objectNumbers, forall₂_append_iff (by simp only [List.length_append, l1, l2]),
        forall₂_append_iff l1]
      exact ⟨⟨h2', h3'⟩, h4'⟩
    · rintro ⟨e, h⟩
      obtain ⟨l1, l2, l3⟩ := hl a b e
      rw [objectNumbers, objectNumbers, forall₂_append_iff (by simp only [List.length_append, l1, l2]),
        forall₂_append_iff l1] at h
      simp only [mapObject, Obj.Object.mk.injEq] at e
      obtain ⟨h1, h2, h3, h4, h5, h6, h7, h8, h9⟩ := e
      exact ⟨⟨⟨⟨⟨⟨⟨⟨h1, h2, h.1.1⟩, h3, h.1.2⟩, h4, h.2⟩, h5⟩, h6⟩, h7⟩, h8⟩, h9⟩
  · obtain ⟨l1, l2, l3⟩ := hl a b h
    simp only [objectNumbers, List.length_append, l1, l2, l3]

/-! ## Equality of what is looked up -/

/-- Has it a texture vertex, has it a normal? -/
def tripleForm : Obj.VTNTriple F → Bool × Bool
  | .V _ => (false, false)
  | .VT _ _ => (true, false)
  | .VN _ _ => (false, true)
  | .VTN _ _ _ => (true, true)

/-- All numbers of it, in order. -/
def tripleNumbers : Obj.VTNTriple F → List F
  | .V p => [p.x, p.y, p.z, p.w]
  | .VT p t => [p.x, p.y, p.z, p.w, t.u, t.v, t.w]
  | .VN p n => [p.x, p.y, p.z, p.w, n.x, n.y, n.z]
  | .VTN p t n => [p.x, p.y, p.z, p.w, t.u, t.v, t.w, n.x, n.y, n.z]

/-- **C73** Two triples are equal (`==`) exactly if they have the same form and their numbers are
pairwise equal (`==`). -/
theorem C73_equality_triple (t t' : Obj.VTNTriple F) : t.eq t' = true ↔ tripleForm t = tripleForm t' ∧
    List.Forall₂ (fun x y => FloatEq.feq x y = true) (tripleNumbers t) (tripleNumbers t') := by
  cases t <;> cases t' <;>
    simp [Obj.VTNTriple.eq, tripleForm, tripleNumbers, Obj.Vertex.eq, Obj.TextureVertex.eq, Obj.NormalVertex.eq, and_assoc]

theorem vecEq_get {α : Type} {eq : α → α → Bool} {a b : List α} (h : vecEq eq a b = true) (i : Nat) :
    (a[i]? = none ∧ b[i]? = none) ∨ ∃ x y, a[i]? = some x ∧ b[i]? = some y ∧ eq x y = true := by
  induction a generalizing b i with
  | nil => cases b with
    | nil => simp
    | cons => simp [vecEq] at h
  | cons x a ih => cases b with
    | nil => simp [vecEq] at h
    | cons y b =>
      rw [vecEq_cons, Bool.and_eq_true] at h
      cases i with
      | zero => exact .inr ⟨x, y, rfl, rfl, h.1⟩
      | succ i => simpa using ih h.2 i

/-- **C73** In equal objects the same index is looked up with equal results. -/
theorem C73_lookup {a b : Obj.Object F} (h : a.eq b = true) (x : Obj.VTNIndex) :
    (a.get_vtn_triple x = none ∧ b.get_vtn_triple x = none) ∨
      ∃ t t', a.get_vtn_triple x = some t ∧ b.get_vtn_triple x = some t' ∧ t.eq t' = true := by
  simp only [Obj.Object.eq, Bool.and_eq_true] at h
  have hv := vecEq_get h.1.1.1.1.1.1.1.2
  have ht := vecEq_get h.1.1.1.1.1.1.2
  have hn := vecEq_get h.1.1.1.1.1.2
  cases x with
  | V i =>
    rcases hv i with ⟨e1, e2⟩ | ⟨p, p', e1, e2, e3⟩ <;> simp [Obj.Object.get_vtn_triple, e1, e2, Obj.VTNTriple.eq]
    exact e3
  | VT i j =>
    rcases hv i with ⟨e1, e2⟩ | ⟨p, p', e1, e2, e3⟩ <;> rcases ht j with ⟨f1, f2⟩ | ⟨q, q', f1, f2, f3⟩ <;>
      simp [Obj.Object.get_vtn_triple, e1, e2, f1, f2, Obj.VTNTriple.eq]
    exact ⟨e3, f3⟩
  | VN i j =>
    rcases hv i with ⟨e1, e2⟩ | ⟨p, p', e1, e2, e3⟩ <;> rcases hn j with ⟨f1, f2⟩ | ⟨q, q', f1, f2, f3⟩ <;>
      simp [Obj.Object.get_vtn_triple, e1, e2, f1, f2, Obj.VTNTriple.eq]
    exact ⟨e3, f3⟩
  | VTN i j k =>
    rcases hv i with ⟨e1, e2⟩ | ⟨p, p', e1, e2, e3⟩ <;> rcases ht j with ⟨f1, f2⟩ | ⟨q, q', f1, f2, f3⟩ <;>
      rcases hn k with ⟨g1, g2⟩ | ⟨u, u', g1, g2, g3⟩ <;>
      simp [Obj.Object.get_vtn_triple, e1, e2, f1, f2, g1, g2, Obj.VTNTriple.eq]
    exact ⟨⟨e3, f3⟩, g3⟩

/-- **C73** Two object sets are equal (`==`) exactly if they differ at most in their numbers, and
the numbers are pairwise equal (`==`). -/
theorem C73_equality_obj (r r' : Obj.ObjectSet F) : r.eq r' = true ↔ objectsShape r = objectsShape r' ∧
    List.Forall₂ (fun x y => FloatEq.feq x y = true) (objectsNumbers r) (objectsNumbers r') := by
  simp only [Obj.ObjectSet.eq, Bool.and_eq_true, beq_iff_eq, splits_object.vec.iff, objectsShape, mapObjects,
    Obj.ObjectSet.mk.injEq, objectsNumbers, and_assoc]

theorem splits_material : Splits (F := F) Mtl.Material.eq (mapMaterial fun _ => ()) materialNumbers := by
  refine ⟨fun a b => ?_, fun a b h => ?_⟩
  · simp only [Mtl.Material.eq, Mtl.Color.eq, Bool.and_eq_true, beq_iff_eq, mapMaterial, Mtl.Material.mk.injEq,
      materialNumbers, colorNumbers, List.cons_append, List.nil_append, List.forall₂_cons]
    cases a.optical_density <;> cases b.optical_density <;> simp [optionEq] <;> tauto
  · simp only [mapMaterial, Mtl.Material.mk.injEq] at h
    have : a.optical_density.toList.length = b.optical_density.toList.length := by
      have := h.2.2.2.2.2.2.2.1
      cases ha : a.optical_density <;> cases hb : b.optical_density <;> simp_all
    simp [materialNumbers, colorNumbers, this]

/-- **C73** The same for material sets. -/
theorem C73_equality_mtl (r r' : Mtl.MaterialSet F) : r.eq r' = true ↔ materialsShape r = materialsShape r' ∧
    List.Forall₂ (fun x y => FloatEq.feq x y = true) (materialsNumbers r) (materialsNumbers r') := by
  simp only [Mtl.MaterialSet.eq, splits_material.vec.iff, materialsShape, Mtl.MaterialSet.mk.injEq,
    materialsNumbers]

/-! ## Comparison with itself -/

theorem forall₂_self {α : Type} {R : α → α → Prop} : ∀ {l : List α}, List.Forall₂ R l l ↔ ∀ x ∈ l, R x x
  | [] => by simp
  | x :: l => by simp

/-- **C73** An object set is equal to itself exactly if all its numbers are. -/
theorem C73_self_obj (r : Obj.ObjectSet F) :
    r.eq r = true ↔ ∀ x ∈ objectsNumbers r, FloatEq.feq x x = true := by
  rw [C73_equality_obj, forall₂_self]; simp

/-- **C73** A material set is equal to itself exactly if all its numbers are. -/
theorem C73_self_mtl (r : Mtl.MaterialSet F) :
    r.eq r = true ↔ ∀ x ∈ materialsNumbers r, FloatEq.feq x x = true := by
  rw [C73_equality_mtl, forall₂_self]; simp

end

section
variable {F : Type} [FloatSem F] [FloatEq F] [IeeeEq F] {cfg : Obj.Cfg} {input : Bytes}

theorem stmt_numbers {lo hi : Obj.Counts} {it toks rest} (h : Obj.Stmt cfg lo hi it toks rest) :
    ∀ t ∈ numberWords it, isFloat t = true ∧ t ∈ toks := by
  cases h <;> simp_all [numberWords]

theorem body_numbers {lo hi : Obj.Counts} {items toks rest} (h : Obj.Body cfg lo hi items toks rest) :
    ∀ it ∈ items, ∀ t ∈ numberWords it, isFloat t = true ∧ t ∈ toks := by
  induction h with
  | done => simp
  | blank _ ih => exact fun it hit t ht => ⟨(ih it hit t ht).1, List.mem_cons_of_mem _ (ih it hit t ht).2⟩
  | stmt h _ ih =>
    rw [List.forall_mem_cons]
    exact ⟨stmt_numbers h, fun it hit t ht =>
      ⟨(ih it hit t ht).1, (Obj.stmt_suffix h).subset (ih it hit t ht).2⟩⟩

theorem objects_numbers {lo : Obj.Counts} {objs toks} (h : Obj.Objects cfg lo objs toks) :
    ∀ o ∈ objs, ∀ it ∈ o.items, ∀ t ∈ numberWords it, isFloat t = true ∧ t ∈ toks := by
  induction h with
  | done => simp
  | obj hh hb _ _ ih =>
    have h1 := Obj.header_suffix hh
    have h2 := (Obj.body_suffix hb).trans h1
    rw [List.forall_mem_cons]
    exact ⟨fun it hit t ht => ⟨(body_numbers hb it hit t ht).1, h1.subset (body_numbers hb it hit t ht).2⟩,
      fun o ho it hit t ht => ⟨(ih o ho it hit t ht).1, h2.subset (ih o ho it hit t ht).2⟩⟩

theorem file_numbers {file toks} (h : Obj.FileOk cfg toks file) :
    ∀ o ∈ file.objects, ∀ it ∈ o.items, ∀ t ∈ numberWords it, isFloat t = true ∧ t ∈ toks := by
  obtain ⟨rest, hl, ho⟩ := h
  exact fun o h it hit t ht => ⟨(objects_numbers ho o h it hit t ht).1,
    (Obj.libs_suffix hl).subset (objects_numbers ho o h it hit t ht).2⟩

/-- The numbers of one object. -/
theorem objMeaning_numbers (lo : Obj.Counts) (o : Obj.ObjAst)
    (hf : ∀ it ∈ o.items, ∀ t ∈ numberWords it, isFloat t = true) :
    (∀ x ∈ objectNumbers (Obj.objMeaning lo o : Obj.Object F), FloatEq.feq x x = true) ↔
      ∀ it ∈ o.items, ∀ t ∈ numberWords it, ¬ NanToken t := by
  have hd := Obj.data_of (F := F) lo o.items
  have hv : ∀ it ∈ o.items, ((∀ t ∈ numberWords it, ¬ NanToken t) ↔
      (∀ p ∈ (Obj.Item.vertex? it : Option (Obj.Vertex F)), ∀ x ∈ [p.x, p.y, p.z, p.w], FloatEq.feq x x = true) ∧
      (∀ p ∈ (Obj.Item.texture? it : Option (Obj.TextureVertex F)), ∀ x ∈ [p.u, p.v, p.w], FloatEq.feq x x = true) ∧
      (∀ p ∈ (Obj.Item.normal? it : Option (Obj.NormalVertex F)), ∀ x ∈ [p.x, p.y, p.z], FloatEq.feq x x = true)) := by
    intro it hit
    have hf := hf it hit
    have hs := IeeeEq.value_self (F := F)
    cases it with
    | v x y z w =>
      cases w <;> simp_all [numberWords, Obj.Item.vertex?, Obj.Item.texture?, Obj.Item.normal?, IeeeEq.one_self]
    | vt u v w =>
      cases v <;> cases w <;>
        simp_all [numberWords, Obj.Item.vertex?, Obj.Item.texture?, Obj.Item.normal?, IeeeEq.zero_self]
    | vn x y z => simp_all [numberWords, Obj.Item.vertex?, Obj.Item.texture?, Obj.Item.normal?]
    | _ => simp [numberWords, Obj.Item.vertex?, Obj.Item.texture?, Obj.Item.normal?]
  have e1 : (Obj.objMeaning lo o : Obj.Object F).vertex_set = o.items.filterMap Obj.Item.vertex? := hd.vertices
  have e2 : (Obj.objMeaning lo o : Obj.Object F).texture_vertex_set = o.items.filterMap Obj.Item.texture? :=
    hd.textures
  have e3 : (Obj.objMeaning lo o : Obj.Object F).normal_vertex_set = o.items.filterMap Obj.Item.normal? :=
    hd.normals
  rw [objectNumbers, e1, e2, e3]
  constructor
  · intro h it hit
    rw [hv it hit]
    refine ⟨fun p hp x hx => h x ?_, fun p hp x hx => h x ?_, fun p hp x hx => h x ?_⟩ <;>
      simp only [List.mem_append, List.mem_flatMap, List.mem_filterMap]
    · exact .inl (.inl ⟨p, ⟨it, hit, hp⟩, hx⟩)
    · exact .inl (.inr ⟨p, ⟨it, hit, hp⟩, hx⟩)
    · exact .inr ⟨p, ⟨it, hit, hp⟩, hx⟩
  · intro h x hx
    simp only [List.mem_append, List.mem_flatMap, List.mem_filterMap] at hx
    rcases hx with (⟨p, ⟨it, hit, hp⟩, hx⟩ | ⟨p, ⟨it, hit, hp⟩, hx⟩) | ⟨p, ⟨it, hit, hp⟩, hx⟩
    · exact ((hv it hit).1 (h it hit)).1 p hp x hx
    · exact ((hv it hit).1 (h it hit)).2.1 p hp x hx
    · exact ((hv it hit).1 (h it hit)).2.2 p hp x hx

theorem objectsMeaning_numbers : ∀ (lo : Obj.Counts) (objs : List Obj.ObjAst),
    (∀ o ∈ objs, ∀ it ∈ o.items, ∀ t ∈ numberWords it, isFloat t = true) →
    ((∀ x ∈ (Obj.objectsMeaning lo objs : List (Obj.Object F)).flatMap objectNumbers, FloatEq.feq x x = true) ↔
      ∀ o ∈ objs, ∀ it ∈ o.items, ∀ t ∈ numberWords it, ¬ NanToken t)
  | lo, [], _ => by simp [Obj.objectsMeaning]
  | lo, o :: os, hf => by
    rw [List.forall_mem_cons] at hf
    rw [Obj.objectsMeaning, List.flatMap_cons, List.forall_mem_append, objMeaning_numbers lo o hf.1,
      objectsMeaning_numbers _ os hf.2, List.forall_mem_cons]

/-- **C73** The result of parsing an OBJ text is equal to itself exactly if no coordinate in the
text is a NaN. -/
theorem C73_nan_obj (hlen : input.length < 2 ^ 63) {r : Obj.ObjectSet F} (h : Obj.parse cfg input = .ok r)
    {file : Obj.FileAst} (hf : Obj.FileOk cfg (tokens input) file) :
    r.eq r = true ↔ ∀ o ∈ file.objects, ∀ it ∈ o.items, ∀ t ∈ numberWords it, ¬ NanToken t := by
  rw [Obj.parse_ok_of hlen hf, Out.ok.injEq] at h
  rw [← h, C73_self_obj]
  exact objectsMeaning_numbers _ _ fun o ho it hit t ht => (file_numbers hf o ho it hit t ht).1

/-- **C73** If the word `nan` does not occur in the text, the result is equal to itself. -/
theorem C73_no_nan_obj (hlen : input.length < 2 ^ 63) {r : Obj.ObjectSet F} (h : Obj.parse cfg input = .ok r)
    (hn : ∀ t ∈ tokens input, ¬ NanToken t) : r.eq r = true := by
  obtain ⟨file, hf, -⟩ := (Obj.parse_ok_iff hlen).1 h
  exact (C73_nan_obj hlen h hf).2 fun o ho it hit t ht => hn t (file_numbers hf o ho it hit t ht).2

/-! ## Materials -/

theorem mtl_body_numbers {items toks rest} (h : Mtl.Body items toks rest) :
    ∀ it ∈ items, ∀ t ∈ mtlNumberWords it, isFloat t = true ∧ t ∈ toks := by
  induction h with
  | done => simp
  | blank _ ih => exact fun it hit t ht => ⟨(ih it hit t ht).1, List.mem_cons_of_mem _ (ih it hit t ht).2⟩
  | stmt h _ ih =>
    rw [List.forall_mem_cons]
    exact ⟨by cases h <;> simp_all [mtlNumberWords], fun it hit t ht =>
      ⟨(ih it hit t ht).1, (Mtl.stmt_suffix h).subset (ih it hit t ht).2⟩⟩

theorem mtl_mats_numbers {mats toks} (h : Mtl.Mats mats toks) :
    ∀ m ∈ mats, ∀ it ∈ m.items, ∀ t ∈ mtlNumberWords it, isFloat t = true ∧ t ∈ toks := by
  induction h with
  | done => simp
  | mat hb _ ih =>
    rw [List.forall_mem_cons]
    refine ⟨fun it hit t ht => ?_, fun m hm it hit t ht => ?_⟩
    · obtain ⟨h1, h2⟩ := mtl_body_numbers hb it hit t ht
      exact ⟨h1, by simp [h2]⟩
    · obtain ⟨h1, h2⟩ := ih m hm it hit t ht
      exact ⟨h1, by simp [(Mtl.body_suffix hb).subset h2]⟩

theorem mtl_file_numbers {mats toks} (h : Mtl.FileOk toks mats) :
    ∀ m ∈ mats, ∀ it ∈ m.items, ∀ t ∈ mtlNumberWords it, isFloat t = true ∧ t ∈ toks := by
  induction h with
  | blank _ ih =>
    exact fun m hm it hit t ht => ⟨(ih m hm it hit t ht).1, List.mem_cons_of_mem _ (ih m hm it hit t ht).2⟩
  | mats h => exact mtl_mats_numbers h

/-- Either no statement is about an attribute, or one is the last about it. -/
theorem last_statement (items : List Mtl.Item) (a : Attr) : (∀ x ∈ items, attr x ≠ a) ∨
    ∃ pre it post, items = pre ++ it :: post ∧ attr it = a ∧ ∀ x ∈ post, attr x ≠ a := by
  induction items with
  | nil => exact .inl (by simp)
  | cons x items ih =>
    rcases ih with h | ⟨pre, it, post, rfl, h1, h2⟩
    · by_cases hx : attr x = a
      · exact .inr ⟨[], x, items, rfl, hx, h⟩
      · exact .inl (by simpa [hx] using h)
    · exact .inr ⟨x :: pre, it, post, rfl, h1, h2⟩

/-- The numbers of a material that belong to an attribute. -/
def attrNumbers {F : Type} (m : Mtl.Material F) : Attr → List F
  | .color s => colorNumbers (colorOf m s)
  | .num .dissolve => [m.dissolve]
  | .num .exponent => [m.specular_exponent]
  | .num .density => m.optical_density.toList
  | _ => []

theorem materialNumbers_attr {F : Type} (m : Mtl.Material F) (x : F) :
    x ∈ materialNumbers m ↔ ∃ a, x ∈ attrNumbers m a := by
  constructor
  · intro h
    simp only [materialNumbers, List.mem_append, List.mem_cons, List.not_mem_nil, or_false] at h
    rcases h with ((((h | h) | h) | h) | h | h) | h
    · exact ⟨.color .ambient, h⟩
    · exact ⟨.color .diffuse, h⟩
    · exact ⟨.color .specular, h⟩
    · exact ⟨.color .emissive, h⟩
    · exact ⟨.num .exponent, by simp [attrNumbers, h]⟩
    · exact ⟨.num .dissolve, by simp [attrNumbers, h]⟩
    · exact ⟨.num .density, h⟩
  · rintro ⟨a, h⟩
    simp only [materialNumbers, List.mem_append, List.mem_cons, List.not_mem_nil, or_false]
    cases a with
    | color s => cases s <;> simp_all [attrNumbers, colorOf]
    | num s => cases s <;> simp_all [attrNumbers]
    | illum => simp [attrNumbers] at h
    | map => simp [attrNumbers] at h

theorem hasValue_numbers {m : Mtl.Material F} {it : Mtl.Item} (h : HasValue m it)
    (hf : ∀ t ∈ mtlNumberWords it, isFloat t = true) :
    (∀ x ∈ attrNumbers m (attr it), FloatEq.feq x x = true) ↔ ∀ t ∈ mtlNumberWords it, ¬ NanToken t := by
  have hs := IeeeEq.value_self (F := F)
  cases it with
  | color s r g b => simp_all [HasValue, attrNumbers, attr, colorNumbers, mtlNumberWords]
  | num s x => cases s <;> simp_all [HasValue, attrNumbers, attr, mtlNumberWords]
  | illum => simp [attrNumbers, attr, mtlNumberWords]
  | map => simp [attrNumbers, attr, mtlNumberWords]

theorem hasDefault_numbers {m : Mtl.Material F} {a : Attr} (h : HasDefault m a) :
    ∀ x ∈ attrNumbers m a, FloatEq.feq x x = true := by
  cases a with
  | color s => simp_all [HasDefault, attrNumbers, colorNumbers, IeeeEq.zero_self]
  | num s => cases s <;> simp_all [HasDefault, attrNumbers, IeeeEq.zero_self, IeeeEq.one_self]
  | illum => simp [attrNumbers]
  | map => simp [attrNumbers]

/-- **C73** The result of parsing an MTL text is equal to itself exactly if no statement that
decides the value of an attribute has a NaN; the statements overridden by later ones do not matter. -/
theorem C73_nan_mtl {r : Mtl.MaterialSet F} (h : Mtl.parse input = .ok r) {mats : List Mtl.MatAst}
    (hf : Mtl.FileOk (tokens input) mats) :
    r.eq r = true ↔ ∀ m ∈ mats, ∀ it, Decides m it → ∀ t ∈ mtlNumberWords it, ¬ NanToken t := by
  have hnum := mtl_file_numbers hf
  have hr : r = Mtl.meaning mats := by
    rw [Mtl.parse_ok_of hf, Out.ok.injEq] at h; exact h.symm
  have hlen : r.materials.length = mats.length := by simp [hr, Mtl.meaning]
  rw [C73_self_mtl]
  simp only [materialsNumbers, List.mem_flatMap, forall_exists_index, and_imp]
  constructor
  · intro hall m hm it ⟨pre, post, hi, hp⟩
    obtain ⟨j, hj⟩ := List.mem_iff_getElem?.1 hm
    obtain ⟨m', hm', -, hv⟩ := C30_last_wins h hf hj hi hp
    rw [← hasValue_numbers hv fun t ht => (hnum m hm it (by simp [hi]) t ht).1]
    exact fun x hx => hall x m' (List.mem_of_getElem? hm') ((materialNumbers_attr _ _).2 ⟨_, hx⟩)
  · intro hall x m' hm' hx
    obtain ⟨a, ha⟩ := (materialNumbers_attr _ _).1 hx
    obtain ⟨j, hj⟩ := List.mem_iff_getElem?.1 hm'
    have hlt : j < mats.length := hlen ▸ (List.getElem?_eq_some_iff.1 hj).1
    obtain ⟨m, hm⟩ : ∃ m, mats[j]? = some m := ⟨_, List.getElem?_eq_getElem hlt⟩
    have hmem := List.mem_of_getElem? hm
    rcases last_statement m.items a with hno | ⟨pre, it, post, hi, rfl, hp⟩
    · obtain ⟨m2, h2, hd⟩ := C30_default h hf hm hno
      rw [hj, Option.some.injEq] at h2
      subst h2
      exact hasDefault_numbers hd x ha
    · obtain ⟨m2, h2, -, hv⟩ := C30_last_wins h hf hm hi hp
      rw [hj, Option.some.injEq] at h2
      subst h2
      exact (hasValue_numbers hv fun t ht => (hnum m hmem it (by simp [hi]) t ht).1).2
        (hall m hmem it ⟨pre, post, hi, hp⟩) x ha

/-- **C73** If the word `nan` does not occur in the text, the result is equal to itself. -/
theorem C73_no_nan_mtl {r : Mtl.MaterialSet F} (h : Mtl.parse input = .ok r)
    (hn : ∀ t ∈ tokens input, ¬ NanToken t) : r.eq r = true := by
  obtain ⟨mats, hf, -⟩ := Mtl.parse_ok_iff.1 h
  refine (C73_nan_mtl h hf).2 fun m hm it ⟨pre, post, hi, _⟩ t ht => hn t ?_
  exact (mtl_file_numbers hf m hm it (by simp [hi]) t ht).2

end

/-! ## An instance -/

/-- Is it a NaN? -/
def isNan (t : Bytes) : Bool := (dropSign t).map lower == b!"nan"

theorem isNan_iff (t : Bytes) : isNan t = true ↔ NanToken t := by
  have hl : ∀ l ∈ b!"nan", (97 : UInt8) ≤ l ∧ l ≤ 122 := by decide
  rw [isNan, beq_iff_eq, map_lower_iff hl]
  constructor
  · intro h
    obtain ⟨s, hs, e⟩ := dropSign_eq t
    exact ⟨s, _, e, hs, h⟩
  · rintro ⟨s, r, rfl, hs, h⟩
    rwa [dropSign_append hs (anyCase_noSign hl h)]

/-- Numbers as texts: equal if the same and not a NaN. -/
instance : FloatEq Bytes := ⟨fun a b => a == b && !isNan a⟩

instance : IeeeEq Bytes where
  value_self t _ := by
    have : (FloatSem.value t : Bytes) = t := rfl
    simp [FloatEq.feq, this, ← isNan_iff]
  zero_self := by decide
  one_self := by decide

/-- The sample has no NaN and is equal to itself. -/
example : sampleResult.eq sampleResult = true := by
  refine C73_no_nan_obj sample_length sample_parses ?_
  have : ∀ t ∈ tokens sample, isNan t = false := by decide +kernel
  intro t ht
  rw [← isNan_iff, this t ht]
  decide

/-- Looking up in it. -/
example : ∃ t t', (sampleResult.objects[0]'(by decide)).get_vtn_triple (.VTN 1 0 0) = some t ∧
    (sampleResult.objects[0]'(by decide)).get_vtn_triple (.VT 1 0) = some t' ∧
      t.eq t = true ∧ t'.eq t' = true ∧ t.eq t' = false := by
  refine ⟨_, _, rfl, rfl, ?_⟩
  decide +kernel

/-- With a NaN among the coordinates it is not; an overridden NaN in a material does no harm. -/
example :
    (∃ r : Obj.ObjectSet Bytes, Obj.parse debug b!"v 0 -NaN 0\np 1\n" = .ok r ∧ r.eq r = false) ∧
    (∃ r : Mtl.MaterialSet Bytes, Mtl.parse b!"newmtl m\nKa nan 0 0\nKa 1 0 0\n" = .ok r ∧ r.eq r = true) ∧
    (∃ r : Mtl.MaterialSet Bytes, Mtl.parse b!"newmtl m\nKa 1 0 0\nNi +nan\n" = .ok r ∧ r.eq r = false) := by
  refine ⟨⟨⟨[], [⟨[], [⟨b!"0", b!"-NaN", b!"0", b!"1"⟩], [], [], [⟨b!"default"⟩], [⟨0⟩], [.Point (.V 0)],
    [⟨0, [0], 0⟩], [⟨none, [0]⟩]⟩]⟩, by decide +kernel⟩,
    ⟨⟨[{ (Mtl.Material.new : Mtl.Material Bytes) with name := b!"m", color_ambient := ⟨b!"1", b!"0", b!"0"⟩ }]⟩,
      by decide +kernel⟩,
    ⟨⟨[{ (Mtl.Material.new : Mtl.Material Bytes) with
      name := b!"m", color_ambient := ⟨b!"1", b!"0", b!"0"⟩, optical_density := some b!"+nan" }]⟩,
      by decide +kernel⟩⟩

/-! ## The order of colors and illumination models -/

section
variable {F : Type} [FloatEq F] [FloatCmp F]

/-- **C73** Colors are ordered by red, then green, then blue; two colors compare as equal exactly
if they are equal (for numbers with this property). -/
theorem C73_color_order (hq : ∀ x y : F, FloatCmp.fcmp x y = some .eq ↔ FloatEq.feq x y = true)
    (c d : Mtl.Color F) :
    (c.partial_cmp d = some .eq ↔ c.eq d = true) ∧
    ∀ o ∈ [Ordering.lt, Ordering.gt], c.partial_cmp d = some o ↔
      FloatCmp.fcmp c.r d.r = some o ∨ FloatEq.feq c.r d.r = true ∧
        (FloatCmp.fcmp c.g d.g = some o ∨ FloatEq.feq c.g d.g = true ∧ FloatCmp.fcmp c.b d.b = some o) := by
  simp only [Mtl.Color.eq, Bool.and_eq_true, ← hq]
  unfold Mtl.Color.partial_cmp
  rcases FloatCmp.fcmp c.r d.r with _ | _ | _ | _ <;> rcases FloatCmp.fcmp c.g d.g with _ | _ | _ | _ <;>
    simp

/-- **C73** Illumination models are ordered like the numbers that select them in a file. -/
theorem C73_illumination_order (a b : Mtl.IlluminationModel) :
    a.cmp b = compare (Mtl.illumNumber a) (Mtl.illumNumber b) := by
  cases a <;> cases b <;> rfl

end

end Verif.Props
