import Verif.Spec.Render
import Verif.Proofs.Render
import Verif.Proofs.MtlLines
import Verif.Props.RoundTrip
import Verif.Props.Display

/-!
# Property C71

Writing MTL files. The crate has no writer; this is the obvious one.
-/

namespace Verif.Spec.Mtl

open Verif Verif.Mtl
open Verif.Spec.Obj (lineText IsToken)

/-- The words of a statement, as the format describes them. -/
def Item.words : Item → List Bytes
  | .color s r g b => [s.tag, r, g, b]
  | .num s x => [s.tag, x]
  | .illum .Ambient => [b!"illum", b!"0"]
  | .illum .AmbientDiffuse => [b!"illum", b!"1"]
  | .illum .AmbientDiffuseSpecular => [b!"illum", b!"2"]
  | .map .ambient name => [b!"map_Ka", name]
  | .map .diffuse name => [b!"map_Kd", name]
  | .map .specular name => [b!"map_Ks", name]
  | .map .emissive name => [b!"map_Ke", name]
  | .map .exponent name => [b!"map_Ns", name]
  | .map .bump name => [b!"map_Bump", name]
  | .map .displacement name => [b!"disp", name]
  | .map .dissolve name => [b!"map_d", name]
  | .map .decal name => [b!"decal", name]

def MatAst.text (m : MatAst) : Bytes :=
  lineText [b!"newmtl", m.name] ++ m.items.flatMap fun it => lineText it.words

def fileText (mats : List MatAst) : Bytes := mats.flatMap MatAst.text

/-- Numbers are numbers, names are names. -/
def ValidItem : Item → Prop
  | .color _ r g b => isFloat r = true ∧ isFloat g = true ∧ isFloat b = true
  | .num _ x => isFloat x = true
  | .illum _ => True
  | .map _ name => IsToken name

def ValidMat (m : MatAst) : Prop := IsToken m.name ∧ ∀ it ∈ m.items, ValidItem it

theorem item_stmt {it : Item} (h : ValidItem it) (rest : List Tok) : Stmt it (it.words ++ rest) rest := by
  cases it with
  | color => exact .color h.1 h.2.1 h.2.2
  | num => exact .num h
  | illum model => cases model <;> exact .illum (by decide)
  | map s name => cases s <;> exact .map (by decide)

theorem isToken_of_bytes {w : Bytes} (h : w ≠ [] ∧ w.all Verif.Obj.wordByte' = true) : IsToken w :=
  .inl ⟨h.1, fun c hc => Verif.Obj.wordByte'_iff.mp (List.all_eq_true.mp h.2 c hc)⟩

theorem item_words {it : Item} (h : ValidItem it) : ∀ w ∈ it.words, IsToken w := by
  cases it with
  | color s r g b =>
    intro w hw
    simp only [Item.words, List.mem_cons, List.not_mem_nil, or_false] at hw
    rcases hw with rfl | rfl | rfl | rfl
    · exact isToken_of_bytes (by cases s <;> decide)
    · exact .inl (Verif.Obj.word_float h.1)
    · exact .inl (Verif.Obj.word_float h.2.1)
    · exact .inl (Verif.Obj.word_float h.2.2)
  | num s x =>
    intro w hw
    simp only [Item.words, List.mem_cons, List.not_mem_nil, or_false] at hw
    rcases hw with rfl | rfl
    · exact isToken_of_bytes (by cases s <;> decide)
    · exact .inl (Verif.Obj.word_float h)
  | illum model =>
    intro w hw
    cases model <;> simp only [Item.words, List.mem_cons, List.not_mem_nil, or_false] at hw <;>
      rcases hw with rfl | rfl <;> exact isToken_of_bytes (by decide)
  | map s name =>
    intro w hw
    cases s <;> simp only [Item.words, List.mem_cons, List.not_mem_nil, or_false] at hw <;>
      (rcases hw with rfl | rfl
       · exact isToken_of_bytes (by decide)
       · exact h)

theorem items_text {items : List Item} (h : ∀ it ∈ items, ValidItem it) {r : Bytes} (hr : BodyEnd (tokens r)) :
    Body items (tokens ((items.flatMap fun it => lineText it.words) ++ r)) (tokens r) := by
  induction items with
  | nil => exact .done hr
  | cons it items ih =>
    rw [List.flatMap_cons, List.append_assoc, Verif.Obj.tokens_line (item_words (h it (by simp)))]
    exact .stmt (item_stmt (h it (by simp)) _) (.blank (ih fun it hit => h it (by simp [hit])))

theorem file_text {mats : List MatAst} (h : ∀ m ∈ mats, ValidMat m) : Mats mats (tokens (fileText mats)) := by
  induction mats with
  | nil => exact .done
  | cons m mats ih =>
    have hm := h m (by simp)
    have hw : ∀ w ∈ [b!"newmtl", m.name], IsToken w := by
      intro w hw
      simp only [List.mem_cons, List.not_mem_nil, or_false] at hw
      rcases hw with rfl | rfl
      · exact isToken_of_bytes (by decide)
      · exact hm.1
    have ih' := ih fun m hm => h m (by simp [hm])
    rw [fileText, List.flatMap_cons, MatAst.text, List.append_assoc, Verif.Obj.tokens_line hw]
    exact .mat (.blank (items_text hm.2 (mats_end ih'))) ih'

end Verif.Spec.Mtl

namespace Verif.Props

open Verif Verif.Mtl Verif.Spec Verif.Spec.Mtl
open Verif.Spec.Obj (lineText IsToken)

variable {F : Type} [FloatSem F] {input : Bytes}

/-- **C71** A valid abstract MTL file, written as text and parsed, gives what it denotes. -/
theorem C71_write_read {mats : List MatAst} (h : ∀ m ∈ mats, ValidMat m) :
    Mtl.parse (fileText mats) = .ok (meaning mats : MaterialSet F) :=
  parse_ok_of (.mats (file_text h))

theorem body_valid {items toks rest} (h : Body items toks rest) (ht : ∀ t ∈ toks, IsToken t) :
    ∀ it ∈ items, ValidItem it := by
  induction h with
  | done => simp
  | blank _ ih => exact ih fun t h => ht t (by simp [h])
  | @stmt it items toks mid rest hs _ ih =>
    intro it' hit
    rcases List.mem_cons.mp hit with rfl | hit
    · cases hs with
      | color h1 h2 h3 => exact ⟨h1, h2, h3⟩
      | num h => exact h
      | illum => trivial
      | map => exact ht _ (by simp)
    · exact ih (fun t h => ht t ((stmt_suffix hs).subset h)) it' hit

theorem mats_valid {mats toks} (h : Mats mats toks) (ht : ∀ t ∈ toks, IsToken t) : ∀ m ∈ mats, ValidMat m := by
  induction h with
  | done => simp
  | mat hb _ ih =>
    intro m hm
    rcases List.mem_cons.mp hm with rfl | hm
    · exact ⟨ht _ (by simp), body_valid hb fun t h => ht t (by simp [h])⟩
    · exact ih (fun t h => ht t (by simp [(body_suffix hb).subset h])) m hm

/-- **C71** The abstract file of any accepted text is valid, so it can be written down again, and
that text has the same result. -/
theorem C71_normal_form {r : MaterialSet F} (h : Mtl.parse input = .ok r) :
    ∃ mats, (∀ m ∈ mats, ValidMat m) ∧ r = meaning mats ∧ Mtl.parse (fileText mats) = .ok r := by
  obtain ⟨mats, hf, rfl⟩ := parse_ok_iff.mp h
  have hv : ∀ m ∈ mats, ValidMat m := by
    obtain ⟨n, m, e, hm⟩ := file_shape hf
    have ht : ∀ t ∈ tokens input, IsToken t := isToken_of_mem
    rw [e] at ht
    exact mats_valid hm fun t h => ht t (List.mem_append_right _ h)
  exact ⟨mats, hv, rfl, C71_write_read hv⟩

/-! ## Writing values -/

section
variable [FloatShow F]

def colorWords (tag : Tok) (c : Color F) : List Bytes :=
  [tag, FloatShow.display c.r, FloatShow.display c.g, FloatShow.display c.b]

/-- All attributes of a material, one per line; optional ones only if present. -/
def writeMaterial (m : Material F) : Bytes :=
  lineText [b!"newmtl", m.name] ++
  lineText (colorWords b!"Ka" m.color_ambient) ++
  lineText (colorWords b!"Kd" m.color_diffuse) ++
  lineText (colorWords b!"Ks" m.color_specular) ++
  lineText (colorWords b!"Ke" m.color_emissive) ++
  lineText [b!"Ns", FloatShow.display m.specular_exponent] ++
  lineText [b!"d", FloatShow.display m.dissolve] ++
  lineText [b!"illum", match m.illumination_model with
    | .Ambient => b!"0" | .AmbientDiffuse => b!"1" | .AmbientDiffuseSpecular => b!"2"] ++
  (m.optical_density.toList.flatMap fun x => lineText [b!"Ni", FloatShow.display x]) ++
  (m.map_ambient.toList.flatMap fun n => lineText [b!"map_Ka", n]) ++
  (m.map_diffuse.toList.flatMap fun n => lineText [b!"map_Kd", n]) ++
  (m.map_specular.toList.flatMap fun n => lineText [b!"map_Ks", n]) ++
  (m.map_emissive.toList.flatMap fun n => lineText [b!"map_Ke", n]) ++
  (m.map_specular_exponent.toList.flatMap fun n => lineText [b!"map_Ns", n]) ++
  (m.map_bump.toList.flatMap fun n => lineText [b!"map_Bump", n]) ++
  (m.map_displacement.toList.flatMap fun n => lineText [b!"disp", n]) ++
  (m.map_dissolve.toList.flatMap fun n => lineText [b!"map_d", n]) ++
  (m.map_decal.toList.flatMap fun n => lineText [b!"decal", n])

/-- The same as an abstract file. -/
def astOf (m : Material F) : MatAst where
  name := m.name
  items :=
    [.color .ambient (FloatShow.display m.color_ambient.r) (FloatShow.display m.color_ambient.g) (FloatShow.display m.color_ambient.b),
     .color .diffuse (FloatShow.display m.color_diffuse.r) (FloatShow.display m.color_diffuse.g) (FloatShow.display m.color_diffuse.b),
     .color .specular (FloatShow.display m.color_specular.r) (FloatShow.display m.color_specular.g) (FloatShow.display m.color_specular.b),
     .color .emissive (FloatShow.display m.color_emissive.r) (FloatShow.display m.color_emissive.g) (FloatShow.display m.color_emissive.b),
     .num .exponent (FloatShow.display m.specular_exponent),
     .num .dissolve (FloatShow.display m.dissolve),
     .illum m.illumination_model] ++
    m.optical_density.toList.map (fun x => .num .density (FloatShow.display x)) ++
    m.map_ambient.toList.map (.map .ambient) ++
    m.map_diffuse.toList.map (.map .diffuse) ++
    m.map_specular.toList.map (.map .specular) ++
    m.map_emissive.toList.map (.map .emissive) ++
    m.map_specular_exponent.toList.map (.map .exponent) ++
    m.map_bump.toList.map (.map .bump) ++
    m.map_displacement.toList.map (.map .displacement) ++
    m.map_dissolve.toList.map (.map .dissolve) ++
    m.map_decal.toList.map (.map .decal)

omit [FloatSem F] in
theorem write_eq (m : Material F) : writeMaterial m = (astOf m).text := by
  obtain ⟨name, ca, cd, cs, ce, se, d, od, il, m1, m2, m3, m4, m5, m6, m7, m8, m9⟩ := m
  unfold writeMaterial astOf MatAst.text
  simp only [List.flatMap_append, List.flatMap_cons, List.flatMap_nil, List.append_nil, List.append_assoc, List.flatMap_map]
  cases il <;> rfl

/-- All names a material has. -/
def materialNames (m : Material F) : List Bytes :=
  m.name :: (m.map_ambient.toList ++ m.map_diffuse.toList ++ m.map_specular.toList ++ m.map_emissive.toList ++
    m.map_specular_exponent.toList ++ m.map_bump.toList ++ m.map_displacement.toList ++ m.map_dissolve.toList ++
    m.map_decal.toList)

theorem ast_meaning [LawfulFloat F] (m : Material F) : matMeaning (astOf m) = m := by
  have hv := LawfulFloat.value_display (F := F)
  obtain ⟨name, ca, cd, cs, ce, se, d, od, il, m1, m2, m3, m4, m5, m6, m7, m8, m9⟩ := m
  have none_maps : ∀ {β : Type} (f : Item → Option β) (s : MapSlot) (o : Option Bytes), (∀ n, f (.map s n) = none) →
      (o.toList.map (Item.map s)).filterMap f = [] := by
    intro β f s o h
    cases o <;> simp [h]
  have some_maps : ∀ (s : MapSlot) (o : Option Bytes),
      (o.toList.map (Item.map s)).filterMap (Item.map? s) = o.toList := by
    intro s o
    cases o <;> simp [Item.map?]
  have none_num : ∀ {β : Type} (f : Item → Option β) (o : Option F), (∀ n, f (.num .density n) = none) →
      (o.toList.map (fun x => Item.num .density (FloatShow.display x))).filterMap f = [] := by
    intro β f o h
    cases o <;> simp [h]
  have some_num : ∀ (o : Option F),
      (o.toList.map (fun x => Item.num .density (FloatShow.display x))).filterMap (Item.num? (F := F) .density) = o.toList := by
    intro o
    cases o <;> simp [Item.num?, hv]
  have hl : ∀ {β : Type} (o : Option β), o.toList.getLast? = o := by
    intro β o
    cases o <;> rfl
  have c1 : ∀ s t x, (Item.color? s (.num t x) : Option (Color F)) = none := fun _ _ _ => rfl
  have c2 : ∀ s x, (Item.color? s (.illum x) : Option (Color F)) = none := fun _ _ => rfl
  have c3 : ∀ s t x, (Item.color? s (.map t x) : Option (Color F)) = none := fun _ _ _ => rfl
  have n1 : ∀ s t x y z, (Item.num? s (.color t x y z) : Option F) = none := fun _ _ _ _ _ => rfl
  have n2 : ∀ s x, (Item.num? s (.illum x) : Option F) = none := fun _ _ => rfl
  have n3 : ∀ s t x, (Item.num? s (.map t x) : Option F) = none := fun _ _ _ => rfl
  have i1 : ∀ t x y z, Item.illum? (.color t x y z) = none := fun _ _ _ _ => rfl
  have i2 : ∀ t x, Item.illum? (.num t x) = none := fun _ _ => rfl
  have i3 : ∀ t x, Item.illum? (.map t x) = none := fun _ _ => rfl
  have m1 : ∀ s t x y z, Item.map? s (.color t x y z) = none := fun _ _ _ _ _ => rfl
  have m2 : ∀ s t x, Item.map? s (.num t x) = none := fun _ _ _ => rfl
  have m3 : ∀ s x, Item.map? s (.illum x) = none := fun _ _ => rfl
  unfold matMeaning astOf
  simp only [last, List.filterMap_append, some_maps, some_num]
  simp [-List.filterMap_map, Item.color?.eq_1, Item.num?.eq_1, Item.illum?.eq_1, Item.map?.eq_1,
    c1, c2, c3, n1, n2, n3, i1, i2, i3, m1, m2, m3, none_maps, none_num, hv, hl]

omit [FloatSem F] in
theorem write_all (ms : List (Material F)) : ms.flatMap writeMaterial = fileText (ms.map astOf) := by
  induction ms with
  | nil => rfl
  | cons m ms ih => rw [List.flatMap_cons, ih, write_eq]; rfl

theorem meaning_all [LawfulFloat F] (ms : List (Material F)) : meaning (ms.map astOf) = ⟨ms⟩ := by
  rw [meaning, List.map_map, funext (f := matMeaning ∘ astOf) (g := id) ast_meaning, List.map_id]

theorem ast_valid [LawfulFloat F] {m : Material F} (hn : ∀ n ∈ materialNames m, IsToken n) : ValidMat (astOf m) := by
  have hd := LawfulFloat.isFloat_display (F := F)
  refine ⟨hn _ List.mem_cons_self, ?_⟩
  have maps : ∀ (s : MapSlot) (o : Option Bytes), (∀ n ∈ o.toList, n ∈ materialNames m) →
      ∀ it ∈ o.toList.map (Item.map s), ValidItem it := by
    intro s o ho it hit
    obtain ⟨n, hn', rfl⟩ := List.mem_map.mp hit
    exact hn n (ho n hn')
  have nums : ∀ it ∈ m.optical_density.toList.map (fun x => Item.num .density (FloatShow.display x)), ValidItem it := by
    intro it hit
    obtain ⟨n, -, rfl⟩ := List.mem_map.mp hit
    exact hd n
  intro it hit
  simp only [astOf, List.mem_append] at hit
  rcases hit with (((((((((hit | hit) | hit) | hit) | hit) | hit) | hit) | hit) | hit) | hit) | hit
  · simp only [List.mem_cons, List.not_mem_nil, or_false] at hit
    rcases hit with rfl | rfl | rfl | rfl | rfl | rfl | rfl
    · exact ⟨hd _, hd _, hd _⟩
    · exact ⟨hd _, hd _, hd _⟩
    · exact ⟨hd _, hd _, hd _⟩
    · exact ⟨hd _, hd _, hd _⟩
    · exact hd _
    · exact hd _
    · trivial
  · exact nums it hit
  all_goals exact maps _ _ (fun n hn => by simp only [materialNames, List.mem_cons, List.mem_append, hn, or_true, true_or]) it hit

/-- **C71** Writing any set of materials and parsing the text gives the set back, provided that
the names are words (or a lone line end) and displayed numbers are read back. -/
theorem C71_values [LawfulFloat F] (ms : MaterialSet F) (h : ∀ m ∈ ms.materials, ∀ n ∈ materialNames m, IsToken n) :
    Mtl.parse (ms.materials.flatMap writeMaterial) = .ok ms := by
  rw [write_all, C71_write_read, meaning_all]
  intro a ha
  obtain ⟨m, hm, rfl⟩ := List.mem_map.mp ha
  exact ast_valid (h m hm)

omit [FloatShow F] in
theorem last_mem {α β : Type} {f : α → Option β} {l : List α} {b : β} (h : last f l = some b) : ∃ a ∈ l, f a = some b := by
  have := List.mem_of_getLast? h
  exact List.mem_filterMap.mp this

omit [FloatShow F] in
theorem names_valid {m : MatAst} (h : ValidMat m) : ∀ n ∈ materialNames (matMeaning m : Material F), IsToken n := by
  have hmap : ∀ s n, n ∈ (last (Item.map? s) m.items).toList → IsToken n := by
    intro s n hn
    obtain ⟨it, hit, e⟩ := last_mem (Option.mem_toList.mp hn)
    have hv := h.2 it hit
    cases it with
    | map s' name =>
      simp only [Item.map?] at e
      split at e
      · cases e
        exact hv
      · cases e
    | color => cases e
    | num => cases e
    | illum => cases e
  intro n hn
  simp only [materialNames, List.mem_cons, List.mem_append] at hn
  rcases hn with rfl | ((((((((hn | hn) | hn) | hn) | hn) | hn) | hn) | hn) | hn)
  · exact h.1
  all_goals exact hmap _ n hn

/-- **C71** What a text is parsed to can be written down and parsed again. -/
theorem C71_read_write [LawfulFloat F] {r : MaterialSet F} (h : Mtl.parse input = .ok r) :
    Mtl.parse (r.materials.flatMap writeMaterial) = .ok r := by
  obtain ⟨mats, hv, rfl, -⟩ := C71_normal_form h
  refine C71_values _ fun m hm => ?_
  obtain ⟨a, ha, rfl⟩ := List.mem_map.mp hm
  exact names_valid (hv a ha)

end

/-- A text with a repeated attribute, as written again. -/
example : (match (Mtl.parse b!"newmtl  red # 1\nKd .5 0 0 Kd 1 0 0\n\nillum 1 map_d x.png\nnewmtl b" :
      Out Mtl.ErrorKind (MaterialSet Bytes)) with
    | .ok r => some (r.materials.map writeMaterial)
    | _ => none) =
    some [b!"newmtl red\nKa 0 0 0\nKd 1 0 0\nKs 0 0 0\nKe 0 0 0\nNs 0\nd 1\nillum 1\nmap_d x.png\n",
      b!"newmtl b\nKa 0 0 0\nKd 0 0 0\nKs 0 0 0\nKe 0 0 0\nNs 0\nd 1\nillum 2\n"] := by decide +kernel

/-- The laws for numbers hold for some type and such sets exist. -/
example : ∃ ms : MaterialSet NumText, ms.materials ≠ [] ∧ ∀ m ∈ ms.materials, ∀ n ∈ materialNames m, IsToken n := by
  have hv : ∀ m ∈ [(⟨b!"red", [.map .bump b!"x.png"]⟩ : MatAst)], ValidMat m := by
    intro m hm
    obtain rfl := List.mem_singleton.mp hm
    refine ⟨isToken_of_bytes (by decide), fun it hit => ?_⟩
    obtain rfl := List.mem_singleton.mp hit
    exact isToken_of_bytes (by decide)
  refine ⟨meaning [⟨b!"red", [.map .bump b!"x.png"]⟩], by simp [meaning], fun m hm => ?_⟩
  obtain ⟨a, ha, rfl⟩ := List.mem_map.mp hm
  exact names_valid (hv a ha)

/-- A name with a space in it is not a word and cannot be written. -/
example : ¬ IsToken b!"dark red" := by
  rintro (⟨-, h⟩ | h)
  · exact absurd (h 32 (by decide)) (by decide)
  · exact absurd h (by decide)

end Verif.Props
