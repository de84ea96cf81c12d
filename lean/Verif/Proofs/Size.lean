import Verif.Proofs.ObjIndices
import Verif.Proofs.ObjLines

/-!
# How large a parse result can be
-/

namespace Verif.Spec.Obj

open Verif Verif.Obj

variable {F : Type} [FloatSem F]

/-- How many table entries a statement adds at most, not counting defaults. -/
def Item.cost : Item → Nat
  | .v .. => 1
  | .vt .. => 1
  | .vn .. => 1
  | .g names => names.length
  | .s _ => 1
  | .usemtl _ => 1
  | it => it.size

/-- By how many tokens at least a statement is longer than that. -/
def Item.slack : Item → Nat
  | .v .. => 3
  | _ => 1

def Acc.entries (a : Acc F) : Nat :=
  a.vertices.length + a.textures.length + a.normals.length + a.groups.length + a.smoothing.length +
    a.elements.length + a.geometries.length

/-- The defaults not yet filled in. -/
def Acc.missing (a : Acc F) : Nat :=
  (1 - a.groups.length) + (1 - a.smoothing.length)

omit [FloatSem F] in
theorem entries_defaults (a : Acc F) : a.defaults.entries + a.defaults.missing ≤ a.entries + a.missing := by
  by_cases h1 : a.groups = [] <;> by_cases h2 : a.smoothing = [] <;>
    simp [Acc.defaults, Acc.entries, Acc.missing, h1, h2] <;> omega

omit [FloatSem F] in
theorem entries_add (a : Acc F) (es : List Element) :
    (a.addElements es).entries + (a.addElements es).missing = a.entries + a.missing + es.length := by
  simp [Acc.addElements, Acc.entries, Acc.missing]; omega

theorem entries_step (lo : Counts) (a : Acc F) (it : Item) :
    (a.step lo it).entries + (a.step lo it).missing ≤ a.entries + a.missing + it.cost ∧
    (it.isElement = false → (a.step lo it).entries ≤ a.entries + it.cost) := by
  have hel : ∀ it : Item, it.isElement = true → it.cost = it.size →
      (a.step lo it).entries + (a.step lo it).missing ≤ a.entries + a.missing + it.cost := by
    intro it h h'
    rw [step_element_eq lo a h, entries_add, elements_length, h']
    have := entries_defaults a
    omega
  cases it with
  | p => exact ⟨hel _ rfl rfl, by simp [Item.isElement]⟩
  | l => exact ⟨hel _ rfl rfl, by simp [Item.isElement]⟩
  | f => exact ⟨hel _ rfl rfl, by simp [Item.isElement]⟩
  | v => constructor <;> simp [Acc.step, Acc.entries, Acc.missing, Item.cost] <;> omega
  | vt => constructor <;> simp [Acc.step, Acc.entries, Acc.missing, Item.cost] <;> omega
  | vn => constructor <;> simp [Acc.step, Acc.entries, Acc.missing, Item.cost] <;> omega
  | g names =>
    constructor
    · by_cases h : a.groups = [] <;> cases names <;>
        simp [Acc.step, Acc.entries, Acc.missing, Item.cost, h] <;> omega
    · simp [Acc.step, Acc.entries, Item.cost]; omega
  | s n =>
    constructor <;> simp [Acc.step, Acc.entries, Acc.missing, Item.cost] <;> omega
  | usemtl =>
    constructor <;> simp only [Acc.step] <;> split <;>
      simp [Acc.entries, Acc.missing, Item.cost] <;> omega

theorem entries_fold (lo : Counts) (a : Acc F) (items : List Item) :
    (items.foldl (Acc.step lo) a).entries + (items.foldl (Acc.step lo) a).missing ≤
        a.entries + a.missing + (items.map Item.cost).sum ∧
    ((∀ it ∈ items, it.isElement = false) →
      (items.foldl (Acc.step lo) a).entries ≤ a.entries + (items.map Item.cost).sum) := by
  induction items generalizing a with
  | nil => simp
  | cons it items ih =>
    have h := entries_step lo a it
    have h' := ih (a.step lo it)
    simp only [List.foldl_cons, List.map_cons, List.sum_cons, List.mem_cons, forall_eq_or_imp]
    refine ⟨by omega, fun hn => ?_⟩
    have := h.2 hn.1
    have := h'.2 hn.2
    omega

theorem forall₂_length_le {α β : Type} {R : α → β → Prop} {a : List α} {b : List β}
    (h : List.Forall₂ R a b) : b.length = a.length := h.length_eq.symm

theorem stmt_cost {cfg : Cfg} {lo hi : Counts} {it toks rest} (h : Stmt cfg lo hi it toks rest) :
    rest.length + it.cost + it.slack ≤ toks.length := by
  have hend : ∀ {mid rest : List Tok}, EndLine mid rest → rest.length ≤ mid.length := by
    rintro mid rest (rfl | ⟨rfl, rfl⟩) <;> simp
  have hstop : ∀ {mid rest : List Tok}, Stop cfg lo hi mid rest → rest.length ≤ mid.length :=
    fun h => (stop_suffix h).length_le
  cases h with
  | g _ h => have := hend h; simp [Item.cost, Item.slack]; omega
  | p _ h1 h => have := hend h; have := h1.length_eq; simp [Item.cost, Item.size, Item.slack]; omega
  | l _ h1 _ h => have := hstop h; have := h1.length_eq; simp [Item.cost, Item.size, Item.slack]; omega
  | f _ h1 _ h => have := hstop h; have := h1.length_eq; simp [Item.cost, Item.size, Item.slack]; omega
  | _ => simp [Item.cost, Item.slack]; try omega

theorem body_cost {cfg : Cfg} {lo hi : Counts} {items toks rest} (h : Body cfg lo hi items toks rest) :
    rest.length + (items.map Item.cost).sum + (items.map Item.slack).sum ≤ toks.length := by
  induction h with
  | done => simp
  | blank _ ih => simp; omega
  | stmt h _ ih =>
    have := stmt_cost h
    simp only [List.map_cons, List.sum_cons]
    omega

theorem slack_sum (items : List Item) :
    items.length + 2 * (countsOf items).v ≤ (items.map Item.slack).sum := by
  induction items with
  | nil => simp [countsOf]
  | cons it items ih =>
    rw [countsOf_cons]
    simp only [List.length_cons, List.map_cons, List.sum_cons, counts_add]
    cases it <;> simp [Item.slack, Item.counts] <;> omega

theorem element_needs_vertex {lo : Counts} : ∀ {items : List Item} {hi : Counts}, ItemsValid lo hi items →
    (∃ it ∈ items, it.isElement = true) → lo.v < hi.v + (countsOf items).v := by
  intro items
  induction items with
  | nil => simp
  | cons it items ih =>
    intro hi hv ⟨it', hm, he⟩
    rw [countsOf_cons, counts_add]
    dsimp only
    rcases List.mem_cons.mp hm with rfl | hm
    · obtain ⟨h1, -⟩ := hv
      have hex : ∀ (refs : List Ref), 2 ≤ refs.length → (∀ r ∈ refs, r.Valid lo hi) → lo.v < hi.v := by
        intro refs h2 hr
        cases refs with
        | nil => simp at h2
        | cons r _ => have := (hr r (by simp)).1; omega
      cases it' with
      | p is =>
        obtain ⟨h2, h3⟩ := h1
        cases is with
        | nil => exact absurd rfl h2
        | cons k _ => have := h3 k (by simp); omega
      | l refs => have := hex refs h1.1 h1.2.2; omega
      | f refs => have := hex refs (by have := h1.1; omega) h1.2.2; omega
      | _ => cases he
    · have := ih hv.2 ⟨it', hm, he⟩
      rw [counts_add] at this
      dsimp only at this
      omega

/-- The entries of all tables of an object (the shape table has as many as the element table). -/
def entries (o : Object F) : Nat :=
  o.vertex_set.length + o.texture_vertex_set.length + o.normal_vertex_set.length + o.group_set.length +
    o.smoothing_group_set.length + o.element_set.length + o.geometry_set.length

theorem object_entries {cfg : Cfg} {lo : Counts} {name : Bytes} {items toks rest} (h : Body cfg lo lo items toks rest)
    (hv : ItemsValid lo lo items) (hn : ¬ Bare items) :
    entries (objMeaning lo ⟨name, items⟩ : Object F) + rest.length ≤ toks.length := by
  have hb := body_cost h
  have hs := slack_sum items
  have hf := entries_fold lo ({} : Acc F) items
  have e0 : ({} : Acc F).entries = 0 := rfl
  have e1 : ({} : Acc F).missing = 2 := rfl
  rw [e0, e1] at hf
  have e : entries (objMeaning lo ⟨name, items⟩ : Object F) =
      (items.foldl (Acc.step lo) ({} : Acc F)).entries + 1 := by
    simp only [entries, objMeaning, Acc.entries, List.length_append, List.length_cons, List.length_nil]
    omega
  rw [e]
  by_cases hel : ∃ it ∈ items, it.isElement = true
  · have h1 := element_needs_vertex hv hel
    have h2 : 2 ≤ items.length := by
      obtain ⟨it, hm, he⟩ := hel
      match items, hm with
      | [it'], hm =>
        simp only [List.mem_singleton] at hm
        subst hm
        cases it <;> first | (cases he; done) | simp [countsOf, Item.counts, counts_add] at h1
      | _ :: _ :: _, _ => simp
    omega
  · have h1 := hf.2 (by simpa using hel)
    have h2 : 1 ≤ items.length := by
      cases items with
      | nil => exact absurd (by simp [Bare]) hn
      | cons => simp
    omega

theorem objects_entries {cfg : Cfg} {lo : Counts} {objs toks} (h : Objects cfg lo objs toks) :
    ((objectsMeaning lo objs : List (Object F)).map entries).sum ≤ toks.length := by
  induction h with
  | done => simp [objectsMeaning]
  | @obj lo name items objs toks mid rest hh hb hn _ ih =>
    have h1 := object_entries (F := F) (name := name) hb (body_valid hb) hn
    have h2 := (header_suffix hh).length_le
    simp only [objectsMeaning, List.map_cons, List.sum_cons]
    omega

theorem libs_entries {toks libs rest} (h : Libs toks libs rest) : libs.length + rest.length ≤ toks.length := by
  induction h with
  | done => simp
  | blank _ ih => simp; omega
  | @line names mid toks libs rest _ he _ ih =>
    have := (endLine_suffix he).length_le
    simp
    omega

theorem file_entries {cfg : Cfg} {toks file} (h : FileOk cfg toks file) :
    (meaning file : ObjectSet F).material_libraries.length +
      ((meaning file : ObjectSet F).objects.map entries).sum ≤ toks.length := by
  obtain ⟨rest, h1, h2⟩ := h
  have := libs_entries h1
  have := objects_entries (F := F) h2
  simp only [meaning]
  omega

/-! ## The lists of groups -/

structure GroupLists (a : Acc F) : Prop where
  now : a.inGroups.length ≤ a.groups.length
  then_ : ∀ e ∈ a.shapes, e.groups.length ≤ a.groups.length

theorem groupLists_step (lo : Counts) {a : Acc F} (h : GroupLists a) (it : Item) : GroupLists (a.step lo it) := by
  have hd : GroupLists a.defaults := by
    by_cases h1 : a.groups = [] <;> by_cases h2 : a.smoothing = [] <;>
      (constructor
       · have := h.now; simp [Acc.defaults, h1, h2] <;> simp_all
       · intro e he
         have := h.then_ e (by simpa [Acc.defaults, h1, h2] using he)
         simp [Acc.defaults, h1, h2]; simp_all)
  have hel : it.isElement = true → GroupLists (a.step lo it) := by
    intro he
    rw [step_element_eq lo a he]
    refine ⟨hd.now, fun e he => ?_⟩
    simp only [Acc.addElements, List.mem_append, List.mem_map] at he
    rcases he with he | ⟨i, -, rfl⟩
    · exact hd.then_ e he
    · exact hd.now
  cases it with
  | p => exact hel rfl
  | l => exact hel rfl
  | f => exact hel rfl
  | g names =>
    refine ⟨by simp [Acc.step], fun e he => ?_⟩
    have := h.then_ e he
    simp [Acc.step]
    omega
  | usemtl =>
    constructor <;> simp only [Acc.step] <;> split
    · exact h.now
    · exact h.now
    · exact h.then_
    · exact h.then_
  | _ => exact ⟨h.now, h.then_⟩

theorem groupLists_fold (lo : Counts) {a : Acc F} (h : GroupLists a) (items : List Item) :
    GroupLists (items.foldl (Acc.step lo) a) := by
  induction items generalizing a with
  | nil => exact h
  | cons it items ih => exact ih (groupLists_step lo h it)

theorem group_lists (lo : Counts) (o : ObjAst) :
    ∀ e ∈ (objMeaning lo o : Object F).shape_set, e.groups.length ≤ (objMeaning lo o : Object F).group_set.length :=
  (groupLists_fold lo (a := ({} : Acc F)) ⟨by simp, by simp⟩ o.items).then_

end Verif.Spec.Obj
