import Verif.Proofs.ObjMeaning

/-!
# What the stored indices denote
-/

namespace Verif.Spec.Obj

open Verif Verif.Obj

/-- The references of a statement. -/
def Item.refs : Item → List Ref
  | .p is => is.map fun k => ⟨k, none, none⟩
  | .l refs => refs
  | .f refs => refs
  | _ => []

/-- The indices of an element, in order. -/
def indices : Element → List VTNIndex
  | .Point a => [a]
  | .Line a b => [a, b]
  | .Face a b c => [a, b, c]

/-! ## Where indices come from -/

theorem Ref.resolve_form (lo : Counts) (a b : Ref) :
    (a.resolve lo).has_same_type_as (b.resolve lo) = true ↔ a.form = b.form := by
  rcases a with ⟨av, at', an⟩
  rcases b with ⟨bv, bt, bn⟩
  cases at' <;> cases an <;> cases bt <;> cases bn <;>
    simp [Ref.resolve, Ref.form, VTNIndex.has_same_type_as]

theorem mem_zipWith {α β γ : Type} (f : α → β → γ) {l : List α} {l' : List β} {c : γ}
    (h : c ∈ List.zipWith f l l') : ∃ a ∈ l, ∃ b ∈ l', c = f a b := by
  induction l generalizing l' with
  | nil => simp at h
  | cons a l ih =>
    cases l' with
    | nil => simp at h
    | cons b l' =>
      simp only [List.zipWith_cons_cons, List.mem_cons] at h
      rcases h with rfl | h
      · exact ⟨a, by simp, b, by simp, rfl⟩
      · obtain ⟨a', h1, b', h2, h3⟩ := ih h
        exact ⟨a', by simp [h1], b', by simp [h2], h3⟩

theorem elements_indices {lo : Counts} {it : Item} {e : Element} (h : e ∈ it.elements lo) :
    ∀ x ∈ indices e, ∃ r ∈ it.refs, x = r.resolve lo := by
  cases it with
  | p is =>
    simp only [Item.elements, List.mem_map] at h
    obtain ⟨k, hk, rfl⟩ := h
    simp only [indices, List.mem_singleton, forall_eq]
    exact ⟨⟨k, none, none⟩, by simpa [Item.refs] using hk, rfl⟩
  | l refs =>
    obtain ⟨a, ha, b, hb, rfl⟩ := mem_zipWith _ h
    have hb := List.mem_of_mem_tail hb
    obtain ⟨a, hra, rfl⟩ := List.mem_map.mp ha
    obtain ⟨b, hrb, rfl⟩ := List.mem_map.mp hb
    intro x hx
    simp only [indices, List.mem_cons, List.not_mem_nil, or_false] at hx
    rcases hx with rfl | rfl
    · exact ⟨a, hra, rfl⟩
    · exact ⟨b, hrb, rfl⟩
  | f refs =>
    cases refs with
    | nil => simp [Item.elements, fan] at h
    | cons z refs =>
      obtain ⟨a, ha, b, hb, rfl⟩ := mem_zipWith _ h
      have hb := List.mem_of_mem_tail hb
      obtain ⟨a, hra, rfl⟩ := List.mem_map.mp ha
      obtain ⟨b, hrb, rfl⟩ := List.mem_map.mp hb
      intro x hx
      simp only [indices, List.mem_cons, List.not_mem_nil, or_false] at hx
      rcases hx with rfl | rfl | rfl
      · exact ⟨z, by simp [Item.refs], rfl⟩
      · exact ⟨a, by simp [Item.refs, hra], rfl⟩
      · exact ⟨b, by simp [Item.refs, hrb], rfl⟩
  | _ => simp [Item.elements] at h

/-! ## Valid references -/

theorem valid_mono {lo hi hi' : Counts} {r : Ref} (h : r.Valid lo hi)
    (h1 : hi.v ≤ hi'.v) (h2 : hi.vt ≤ hi'.vt) (h3 : hi.vn ≤ hi'.vn) : r.Valid lo hi' :=
  ⟨⟨h.1.1, by have := h.1.2; omega⟩,
   fun t ht => ⟨(h.2.1 t ht).1, by have := (h.2.1 t ht).2; omega⟩,
   fun t ht => ⟨(h.2.2 t ht).1, by have := (h.2.2 t ht).2; omega⟩⟩

theorem item_refs_valid {lo hi : Counts} {it : Item} (h : it.Valid lo hi) :
    ∀ r ∈ it.refs, r.Valid lo hi := by
  cases it with
  | p is =>
    intro r hr
    simp only [Item.refs, List.mem_map] at hr
    obtain ⟨k, hk, rfl⟩ := hr
    exact ⟨h.2 k hk, by simp, by simp⟩
  | l refs => exact h.2.2
  | f refs => exact h.2.2
  | _ => simp [Item.refs]

theorem items_refs_valid {lo hi : Counts} {items : List Item} (h : ItemsValid lo hi items) :
    ∀ it ∈ items, ∀ r ∈ it.refs, r.Valid lo (hi + countsOf items) := by
  induction items generalizing hi with
  | nil => simp
  | cons it items ih =>
    intro it' hit r hr
    rw [countsOf_cons, ← counts_add_assoc]
    rcases List.mem_cons.mp hit with rfl | hit
    · exact valid_mono (item_refs_valid h.1 r hr) (by simp only [counts_add]; omega)
        (by simp only [counts_add]; omega) (by simp only [counts_add]; omega)
    · exact ih h.2 it' hit r hr

theorem items_uniform {lo hi : Counts} {items : List Item} (h : ItemsValid lo hi items) :
    ∀ it ∈ items, Uniform it.refs := by
  induction items generalizing hi with
  | nil => simp
  | cons it items ih =>
    intro it' hit
    rcases List.mem_cons.mp hit with rfl | hit
    · have h1 := h.1
      cases it' with
      | l refs => exact h1.2.1
      | f refs => exact h1.2.1
      | p is =>
        intro a ha b hb
        simp only [Item.refs, List.mem_map] at ha hb
        obtain ⟨_, _, rfl⟩ := ha
        obtain ⟨_, _, rfl⟩ := hb
        rfl
      | _ => intro a ha; simp [Item.refs] at ha
    · exact ih h.2 it' hit

/-! ## Data of references -/

section
variable {F : Type} [FloatSem F]

/-- What a reference denotes in given lists of vertices, texture vertices and normals,
counting from 1. -/
def Ref.data (vs : List (Vertex F)) (ts : List (TextureVertex F)) (ns : List (NormalVertex F))
    (r : Ref) : Option (VTNTriple F) :=
  match vs[r.v - 1]?, r.vt, r.vn with
  | some v, none, none => some (.V v)
  | some v, some t, none =>
    match ts[t - 1]? with
    | some vt => some (.VT v vt)
    | none => none
  | some v, none, some n =>
    match ns[n - 1]? with
    | some vn => some (.VN v vn)
    | none => none
  | some v, some t, some n =>
    match ts[t - 1]?, ns[n - 1]? with
    | some vt, some vn => some (.VTN v vt vn)
    | _, _ => none
  | none, _, _ => none

theorem countsOf_eq (items : List Item) : countsOf items =
    ⟨(items.filterMap (Item.vertex? (F := F))).length, (items.filterMap (Item.texture? (F := F))).length,
      (items.filterMap (Item.normal? (F := F))).length⟩ := by
  induction items with
  | nil => rfl
  | cons it items ih =>
    rw [countsOf_cons, ih]
    cases it <;> simp [List.filterMap_cons, Item.counts, counts_add, Item.vertex?, Item.texture?, Item.normal?] <;> omega

omit [FloatSem F] in
theorem getElem?_mid {α : Type} (a b c : List α) {k n : Nat} (hn : n = a.length) (h1 : n < k)
    (h2 : k ≤ n + b.length) : (a ++ (b ++ c))[k - 1]? = b[k - 1 - n]? := by
  subst hn
  rw [List.getElem?_append_right (by omega), List.getElem?_append_left (by omega)]

/-- The stored form of a valid reference denotes what the reference denotes in the file. -/
theorem resolve_data (before items after : List Item) (name : Bytes) {r : Ref}
    (h : r.Valid (countsOf before) (countsOf before + countsOf items)) :
    let o : Object F := objMeaning (countsOf before) ⟨name, items⟩
    let all := before ++ (items ++ after)
    o.get_vtn_triple (r.resolve (countsOf before)) =
      r.data (all.filterMap Item.vertex?) (all.filterMap Item.texture?) (all.filterMap Item.normal?) ∧
    (o.get_vtn_triple (r.resolve (countsOf before))).isSome := by
  intro o all
  have hd := data_of (F := F) (countsOf before) items
  have e1 : o.vertex_set = items.filterMap Item.vertex? := hd.vertices
  have e2 : o.texture_vertex_set = items.filterMap Item.texture? := hd.textures
  have e3 : o.normal_vertex_set = items.filterMap Item.normal? := hd.normals
  have cb := countsOf_eq (F := F) before
  have ci := countsOf_eq (F := F) items
  obtain ⟨⟨hv1, hv2⟩, ht, hn⟩ := h
  rw [ci] at hv2 ht hn
  simp only [counts_add] at hv2 ht hn
  have hb1 : (countsOf before).v = (before.filterMap (Item.vertex? (F := F))).length := by rw [cb]
  have hb2 : (countsOf before).vt = (before.filterMap (Item.texture? (F := F))).length := by rw [cb]
  have hb3 : (countsOf before).vn = (before.filterMap (Item.normal? (F := F))).length := by rw [cb]
  have hv : (all.filterMap Item.vertex?)[r.v - 1]? = o.vertex_set[r.v - 1 - (countsOf before).v]? := by
    rw [e1]
    simp only [all, List.filterMap_append]
    exact getElem?_mid _ _ _ hb1 hv1 hv2
  have hvs : ∃ x, o.vertex_set[r.v - 1 - (countsOf before).v]? = some x :=
    ⟨_, List.getElem?_eq_getElem (by rw [e1]; omega)⟩
  obtain ⟨x, hx⟩ := hvs
  rcases r with ⟨rv, rt, rn⟩
  have ht' : ∀ t ∈ rt, (all.filterMap Item.texture?)[t - 1]? =
      o.texture_vertex_set[t - 1 - (countsOf before).vt]? ∧
      ∃ y, o.texture_vertex_set[t - 1 - (countsOf before).vt]? = some y := by
    intro t htm
    obtain ⟨a, b⟩ := ht t htm
    refine ⟨?_, _, List.getElem?_eq_getElem (by rw [e2]; omega)⟩
    rw [e2]
    simp only [all, List.filterMap_append]
    exact getElem?_mid _ _ _ hb2 a b
  have hn' : ∀ t ∈ rn, (all.filterMap Item.normal?)[t - 1]? =
      o.normal_vertex_set[t - 1 - (countsOf before).vn]? ∧
      ∃ y, o.normal_vertex_set[t - 1 - (countsOf before).vn]? = some y := by
    intro t htm
    obtain ⟨a, b⟩ := hn t htm
    refine ⟨?_, _, List.getElem?_eq_getElem (by rw [e3]; omega)⟩
    rw [e3]
    simp only [all, List.filterMap_append]
    exact getElem?_mid _ _ _ hb3 a b
  dsimp only at hv hx
  rw [hx] at hv
  cases rt with
  | none =>
    cases rn with
    | none => simp [Ref.resolve, Ref.data, Object.get_vtn_triple, hv, hx]
    | some n =>
      obtain ⟨f1, y, f2⟩ := hn' n rfl
      rw [f2] at f1
      simp [Ref.resolve, Ref.data, Object.get_vtn_triple, hv, hx, f1, f2]
  | some t =>
    obtain ⟨g1, z, g2⟩ := ht' t rfl
    rw [g2] at g1
    cases rn with
    | none => simp [Ref.resolve, Ref.data, Object.get_vtn_triple, hv, hx, g1, g2]
    | some n =>
      obtain ⟨f1, y, f2⟩ := hn' n rfl
      rw [f2] at f1
      simp [Ref.resolve, Ref.data, Object.get_vtn_triple, hv, hx, g1, g2, f1, f2]

/-! ## Data of elements -/

/-- An element with data in place of indices. -/
inductive ElementData (F : Type) where
  | point (a : VTNTriple F)
  | line (a b : VTNTriple F)
  | face (a b c : VTNTriple F)
deriving DecidableEq, Repr

/-- Looking the indices of an element up in its object. -/
def lookup (o : Object F) : Element → Option (ElementData F)
  | .Point a => (o.get_vtn_triple a).map .point
  | .Line a b =>
    match o.get_vtn_triple a, o.get_vtn_triple b with
    | some a, some b => some (.line a b)
    | _, _ => none
  | .Face a b c =>
    match o.get_vtn_triple a, o.get_vtn_triple b, o.get_vtn_triple c with
    | some a, some b, some c => some (.face a b c)
    | _, _, _ => none

/-- The elements a statement denotes, given the data of its references: one point per
reference, the segments between consecutive references, the triangles around the
first reference. -/
def Item.drawn (data : Ref → Option (VTNTriple F)) : Item → List (Option (ElementData F))
  | .p is => is.map fun k => (data ⟨k, none, none⟩).map .point
  | .l refs => List.zipWith (fun a b =>
      match data a, data b with
      | some a, some b => some (.line a b)
      | _, _ => none) refs refs.tail
  | .f [] => []
  | .f (z :: refs) => List.zipWith (fun a b =>
      match data z, data a, data b with
      | some z, some a, some b => some (.face z a b)
      | _, _, _ => none) refs refs.tail
  | _ => []

theorem zipWith_map' {α β γ : Type} (f : β → β → γ) (g : α → β) (l : List α) :
    List.zipWith f (l.map g) (l.map g).tail = List.zipWith (fun a b => f (g a) (g b)) l l.tail := by
  rw [← List.map_tail, List.zipWith_map]

theorem zipWith_congr {α γ : Type} {f g : α → α → γ} {l l' : List α}
    (h : ∀ a ∈ l, ∀ b ∈ l', f a b = g a b) : List.zipWith f l l' = List.zipWith g l l' := by
  induction l generalizing l' with
  | nil => rfl
  | cons a l ih =>
    cases l' with
    | nil => rfl
    | cons b l' =>
      simp only [List.zipWith_cons_cons]
      rw [h a (by simp) b (by simp), ih fun a ha b hb => h a (by simp [ha]) b (by simp [hb])]

omit [FloatSem F] in
theorem drawn_elements (lo : Counts) (o : Object F) (data : Ref → Option (VTNTriple F)) (it : Item)
    (h : ∀ r ∈ it.refs, o.get_vtn_triple (r.resolve lo) = data r) :
    (it.elements lo).map (lookup o) = it.drawn data := by
  cases it with
  | p is =>
    simp only [Item.elements, Item.drawn, List.map_map]
    refine List.map_congr_left fun k hk => ?_
    have := h ⟨k, none, none⟩ (by simpa [Item.refs] using hk)
    simp only [Ref.resolve] at this
    simp [lookup, this]
  | l refs =>
    simp only [Item.elements, Item.drawn, segments]
    rw [zipWith_map', List.map_zipWith]
    refine zipWith_congr fun a ha b hb => ?_
    simp only [lookup]
    rw [h a ha, h b (List.mem_of_mem_tail hb)]
  | f refs =>
    cases refs with
    | nil => rfl
    | cons z refs =>
      simp only [Item.elements, Item.drawn, fan, List.map_cons]
      rw [zipWith_map', List.map_zipWith]
      refine zipWith_congr fun a ha b hb => ?_
      simp only [lookup]
      rw [h a (by simp [Item.refs, ha]), h b (by simp [Item.refs, List.mem_of_mem_tail hb]),
        h z (by simp [Item.refs])]
  | _ => rfl

end

end Verif.Spec.Obj
