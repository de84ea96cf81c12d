import Verif.Proofs.Size
import Verif.Props.RoundTrip
import Verif.Props.Tables
import Verif.Proofs.MtlLines

/-!
# Property C59: how much a text can make the parsers store
-/

namespace Verif.Props

open Verif Verif.Spec

variable {F : Type} [FloatSem F] {cfg : Obj.Cfg} {input : Bytes}

/-- All entries of the tables of an object, apart from the shape table (one entry per element). -/
def tableSize (o : Obj.Object F) : Nat :=
  o.vertex_set.length + o.texture_vertex_set.length + o.normal_vertex_set.length + o.group_set.length +
    o.smoothing_group_set.length + o.element_set.length + o.geometry_set.length

/-- All entries of the group lists of the shape table of an object. -/
def groupRefs (o : Obj.Object F) : Nat := (o.shape_set.map fun e => e.groups.length).sum

open Obj in
/-- **C59** All tables of all objects together have at most as many entries as the text has
tokens, the defaults included. -/
theorem C59_tables (hlen : input.length < 2 ^ 63) {r : ObjectSet F} (h : Obj.parse cfg input = .ok r) :
    r.material_libraries.length + (r.objects.map tableSize).sum ≤ (tokens input).length := by
  obtain ⟨file, hf, rfl⟩ := (Verif.Obj.parse_ok_iff hlen).mp h
  exact Spec.Obj.file_entries hf

open Obj in
/-- **C59** So at most as many as it has bytes. -/
theorem C59_bytes (hlen : input.length < 2 ^ 63) {r : ObjectSet F} (h : Obj.parse cfg input = .ok r) :
    r.material_libraries.length + (r.objects.map tableSize).sum ≤ input.length :=
  (C59_tables hlen h).trans (length_tokens_le input)

open Obj in
/-- **C59** A shape entry belongs to at most as many groups as the object has. -/
theorem C59_groups (hlen : input.length < 2 ^ 63) {r : ObjectSet F} (h : Obj.parse cfg input = .ok r)
    {o : Object F} (ho : o ∈ r.objects) {e : ShapeEntry} (he : e ∈ o.shape_set) :
    e.groups.length ≤ o.group_set.length := by
  obtain ⟨file, hf, rfl⟩ := (Verif.Obj.parse_ok_iff hlen).mp h
  have hgen : ∀ (objs : List Spec.Obj.ObjAst) (lo : Spec.Obj.Counts),
      o ∈ (Spec.Obj.objectsMeaning lo objs : List (Object F)) → e.groups.length ≤ o.group_set.length := by
    intro objs
    induction objs with
    | nil => intro lo h; cases h
    | cons a objs ih =>
      intro lo h
      rcases List.mem_cons.mp h with rfl | h
      · exact Spec.Obj.group_lists lo a e he
      · exact ih _ h
  exact hgen _ _ ho

theorem sum_le_mul {l : List Nat} {b : Nat} (h : ∀ x ∈ l, x ≤ b) : l.sum ≤ l.length * b := by
  induction l with
  | nil => simp
  | cons a l ih =>
    have h1 := h a (by simp)
    have h2 := ih fun x hx => h x (by simp [hx])
    simp only [List.sum_cons, List.length_cons, Nat.succ_mul]
    omega

theorem le_sum_of_mem {x : Nat} {l : List Nat} (h : x ∈ l) : x ≤ l.sum := by
  induction l with
  | nil => cases h
  | cons a l ih =>
    rw [List.sum_cons]
    rcases List.mem_cons.mp h with rfl | h
    · omega
    · have := ih h
      omega

open Obj in
/-- **C59** The group lists together have at most quadratically many entries. -/
theorem C59_quadratic (hlen : input.length < 2 ^ 63) {r : ObjectSet F} (h : Obj.parse cfg input = .ok r) :
    (r.objects.map groupRefs).sum ≤ (tokens input).length * (tokens input).length := by
  have ht := C59_tables hlen h
  have hobj : ∀ o ∈ r.objects, groupRefs o ≤ tableSize o * (tokens input).length := by
    intro o ho
    have h1 : tableSize o ≤ (tokens input).length := by
      have : tableSize o ≤ (r.objects.map tableSize).sum :=
        le_sum_of_mem (List.mem_map_of_mem ho)
      omega
    have hs : o.shape_set.length = o.element_set.length := (C12_shape_entries hlen h o ho).1
    have h2 : groupRefs o ≤ o.shape_set.length * o.group_set.length := by
      have := sum_le_mul (l := o.shape_set.map fun e => e.groups.length) (b := o.group_set.length) (by
        intro x hx
        obtain ⟨e, he, rfl⟩ := List.mem_map.mp hx
        exact C59_groups hlen h ho he)
      simpa [groupRefs] using this
    refine h2.trans (Nat.mul_le_mul ?_ (le_trans ?_ h1)) <;> simp only [tableSize] <;> omega
  have hsum : ∀ l : List (Object F), (∀ o ∈ l, groupRefs o ≤ tableSize o * (tokens input).length) →
      (l.map groupRefs).sum ≤ (l.map tableSize).sum * (tokens input).length := by
    intro l
    induction l with
    | nil => simp
    | cons a l ih =>
      intro hl
      have h1 := hl a (by simp)
      have h2 := ih fun x hx => hl x (by simp [hx])
      simp only [List.map_cons, List.sum_cons, Nat.add_mul]
      omega
  exact (hsum _ hobj).trans (Nat.mul_le_mul_right _ (by omega))

/-- One vertex, a line with `n` groups, a line with `n` points. -/
def manyGroups (n : Nat) : Bytes :=
  b!"v 0 0 0\ng" ++ (List.replicate n b!" a").flatten ++ b!"\np" ++ (List.replicate n b!" 1").flatten ++ b!"\n"

theorem manyGroups_length (n : Nat) : (manyGroups n).length = 4 * n + 12 := by
  simp [manyGroups, List.length_flatten]
  omega

def manyGroupsAst (n : Nat) : Spec.Obj.FileAst :=
  ⟨[], [⟨[], [.v b!"0" b!"0" b!"0" none, .g (List.replicate n b!"a"), .p (List.replicate n 1)]⟩]⟩

theorem intercalate_replicate (w x : Bytes) (n : Nat) :
    List.intercalate [32] (w :: List.replicate n x) = w ++ (List.replicate n ([32] ++ x)).flatten := by
  induction n generalizing w with
  | zero => simp [List.intercalate]
  | succ n ih =>
    have := ih x
    simp only [List.intercalate, List.replicate_succ, List.intersperse_cons_cons, List.flatten_cons] at this ⊢
    rw [this]
    simp

theorem manyGroups_text (n : Nat) : (manyGroupsAst n).text = manyGroups n := by
  simp only [Spec.Obj.FileAst.text, manyGroupsAst, List.flatMap_cons, List.flatMap_nil, Spec.Obj.ObjAst.text,
    Spec.Obj.itemsText, Spec.Obj.lineText, Spec.Obj.Item.words, if_true, List.map_replicate,
    intercalate_replicate, manyGroups]
  simp [List.intercalate, show showNat 1 = b!"1" by decide]

open Obj in
/-- **C59** That bound is of the right order: a text of `4 n + 12` bytes yields `n * n` entries. -/
theorem C59_reached {n : Nat} (hn : 0 < n) (hlen : 4 * n + 12 < 2 ^ 63) :
    ∃ input : Bytes, input.length = 4 * n + 12 ∧
      ∃ r : ObjectSet F, Obj.parse cfg input = .ok r ∧ (r.objects.map groupRefs).sum = n * n := by
  have hv : Spec.Obj.ValidFile (manyGroupsAst n) := by
    refine ⟨by simp [manyGroupsAst], .inl rfl, ⟨?_, ?_, ?_, trivial⟩, ?_, trivial⟩
    · refine ⟨by decide +kernel, by decide +kernel, by decide +kernel, by simp⟩
    · intro x hx
      obtain rfl := List.eq_of_mem_replicate hx
      refine ⟨.inl ⟨by decide, by decide⟩, by decide⟩
    · refine ⟨by simp; omega, ?_⟩
      intro k hk
      obtain rfl := List.eq_of_mem_replicate hk
      exact ⟨Nat.one_pos, Nat.le_refl 1⟩
    · intro hb
      have := hb (.p (List.replicate n 1)) (by simp)
      simp [Spec.Obj.Item.isElement] at this
  refine ⟨manyGroups n, manyGroups_length n, Spec.Obj.meaning (manyGroupsAst n), ?_, ?_⟩
  · rw [← manyGroups_text]
    exact C28_write_read hv (by rw [manyGroups_text, manyGroups_length]; exact hlen)
  · have hg : List.replicate n b!"a" ≠ [] := by simp; omega
    simp [Spec.Obj.meaning, manyGroupsAst, Spec.Obj.objectsMeaning, Spec.Obj.objMeaning, Spec.Obj.Acc.step,
      Spec.Obj.Acc.defaults, Spec.Obj.Acc.addElements, Spec.Obj.Item.elements, groupRefs,
      show n ≠ 0 by omega, Function.comp_def]

/-- **C59** Every material takes at least two tokens. -/
theorem C59_materials {r : Mtl.MaterialSet F} (h : Mtl.parse input = .ok r) :
    2 * r.materials.length ≤ (tokens input).length := by
  obtain ⟨mats, hf, rfl⟩ := Verif.Mtl.parse_ok_iff.mp h
  have hm : ∀ {mats toks}, Spec.Mtl.Mats mats toks → 2 * mats.length ≤ toks.length := by
    intro mats toks hm
    induction hm with
    | done => simp
    | mat hb _ ih =>
      have := (Spec.Mtl.body_suffix hb).length_le
      simp only [List.length_cons]
      omega
  have : ∀ {mats toks}, Spec.Mtl.FileOk toks mats → 2 * mats.length ≤ toks.length := by
    intro mats toks hf
    induction hf with
    | blank _ ih => simp only [List.length_cons]; omega
    | mats h => exact hm h
  simpa [Spec.Mtl.meaning] using this hf

/-- The sample. -/
example : sampleResult.material_libraries.length + (sampleResult.objects.map tableSize).sum ≤
    (tokens sample).length := C59_tables (cfg := debug) sample_length sample_parses

/-- Tables with 19 entries (default smoothing group and final geometry included) from 25 tokens,
and 64 entries in group lists. -/
example : (match (Obj.parse debug b!"v 0 0 0\ng a b c d e f g h\np 1 1 1 1 1 1 1 1\n" :
      Out Obj.ErrorKind (Obj.ObjectSet Bytes)) with
    | .ok r => (r.objects.map tableSize).sum == 19 && (r.objects.map groupRefs).sum == 64
    | _ => false) = true ∧
    (tokens b!"v 0 0 0\ng a b c d e f g h\np 1 1 1 1 1 1 1 1\n").length = 25 := by
  decide +kernel

example : (match (Mtl.parse b!"newmtl a\nnewmtl b" : Out Mtl.ErrorKind (Mtl.MaterialSet Bytes)) with
    | .ok r => r.materials.length == 2
    | _ => false) = true ∧ (tokens b!"newmtl a\nnewmtl b").length = 5 := by
  decide +kernel

end Verif.Props
