import Verif.Props.Stability
import Verif.Props.Objects
import Verif.Props.Materials
import Verif.Props.Samples
import Verif.Proofs.Stable
import Verif.Proofs.ObjUnique
import Verif.Proofs.ObjMeaning

/-!
# Reading more lines only adds to the result

A text that ends with a complete line, and the same text with more behind it. What was read from
the first part is still there in the result for the whole, at the same places.
-/

namespace Verif.Spec

open Verif

/-- Nothing, or tokens up to the end of a line. -/
def Lines (toks : List Tok) : Prop := toks = [] ∨ toks.getLast? = some nl

theorem Lines.suffix {a b : List Tok} (h : a <:+ b) (hb : Lines b) : Lines a := by
  by_cases ha : a = []
  · exact .inl ha
  · rcases hb with rfl | hb
    · exact .inl (List.suffix_nil.mp h)
    · exact .inr (getLast_suffix h ha hb)

end Verif.Spec

namespace Verif.Spec.Obj

open Verif Verif.Obj

/-- What an object becomes when more of its text is read: nothing is taken back. Only the last
geometry can still change: it gets more elements, and as long as it has none, it can be dropped. -/
structure Grows {F : Type} (o o' : Object F) : Prop where
  name : o'.name = o.name
  vertices : o.vertex_set <+: o'.vertex_set
  textures : o.texture_vertex_set <+: o'.texture_vertex_set
  normals : o.normal_vertex_set <+: o'.normal_vertex_set
  groups : o.group_set <+: o'.group_set
  smoothing : o.smoothing_group_set <+: o'.smoothing_group_set
  elements : o.element_set <+: o'.element_set
  shapes : o.shape_set <+: o'.shape_set
  geometries : ∃ done last, o.geometry_set = done ++ [last] ∧
    ((last.shapes = [] ∧ done <+: o'.geometry_set) ∨
      ∃ more, done ++ [⟨last.material_name, last.shapes ++ more⟩] <+: o'.geometry_set)

variable {cfg : Cfg} {lo hi : Counts}

theorem endLine_extend {kw : Tok} {names mid rest : List Tok} (hk : kw ≠ nl) (hn : nl ∉ names) (h : EndLine mid rest)
    (hl : (kw :: (names ++ mid)).getLast? = some nl) (Y : List Tok) : EndLine (mid ++ Y) (rest ++ Y) := by
  rcases h with rfl | ⟨rfl, rfl⟩
  · exact .inl rfl
  · have := getLast_mem hl
    simp only [List.append_nil, List.mem_cons] at this
    rcases this with h | h
    · exact absurd h.symm hk
    · exact absurd h hn

/-- A statement of complete lines is the same statement when more follows. -/
theorem stmt_extend {it toks rest} (h : Stmt cfg lo hi it toks rest) (hl : toks.getLast? = some nl) (Y : List Tok) :
    Stmt cfg lo hi it (toks ++ Y) (rest ++ Y) := by
  by_cases hr : rest = []
  · subst hr
    have hm := getLast_mem hl
    have e' : ∀ (a : Tok) (ts r : List Tok), a :: (ts ++ r) ++ Y = a :: (ts ++ (r ++ Y)) := by intros; simp
    cases h with
    | v3 h1 h2 h3 _ =>
      exfalso
      simp only [List.mem_cons, List.not_mem_nil, or_false] at hm
      rcases hm with h | h | h | h
      · exact absurd h (by decide)
      · exact float_ne_nl h1 h.symm
      · exact float_ne_nl h2 h.symm
      · exact float_ne_nl h3 h.symm
    | v4 h1 h2 h3 h4 => exact .v4 h1 h2 h3 h4
    | vt1 h1 _ =>
      exfalso
      simp only [List.mem_cons, List.not_mem_nil, or_false] at hm
      rcases hm with h | h
      · exact absurd h (by decide)
      · exact float_ne_nl h1 h.symm
    | vt2 h1 h2 _ =>
      exfalso
      simp only [List.mem_cons, List.not_mem_nil, or_false] at hm
      rcases hm with h | h | h
      · exact absurd h (by decide)
      · exact float_ne_nl h1 h.symm
      · exact float_ne_nl h2 h.symm
    | vt3 h1 h2 h3 => exact .vt3 h1 h2 h3
    | vn h1 h2 h3 => exact .vn h1 h2 h3
    | g h1 h2 => rw [e']; exact .g h1 (endLine_extend (by decide) h1 h2 hl Y)
    | s h => exact .s h
    | usemtl => exact .usemtl
    | p h1 h2 h3 =>
      rw [e']
      refine .p h1 h2 (endLine_extend (by decide) ?_ h3 hl Y)
      intro h
      exact forall₂_left h2 (fun _ _ => numTok_ne_nl) _ h rfl
    | l h1 h2 h3 h4 => rw [e']; exact .l h1 h2 h3 (stop_extend (by decide) h2 h4 hl Y)
    | f h1 h2 h3 h4 => rw [e']; exact .f h1 h2 h3 (stop_extend (by decide) h2 h4 hl Y)
  · exact stmt_append h hr Y

theorem body_grow {items toks rest} (h : Body cfg lo hi items toks rest) (hl : Lines toks) {Y : List Tok}
    {items' rest'} (h' : Body cfg lo hi items' (toks ++ Y) rest') :
    items <+: items' ∧ (rest ≠ [] → items' = items ∧ rest' = rest ++ Y) := by
  by_cases hr : rest = []
  · refine ⟨?_, fun h => absurd hr h⟩
    induction h generalizing items' with
    | done => exact List.nil_prefix
    | blank h ih =>
      cases h' with
      | done h => exact absurd h (fun h => bodyEnd_not_nl h)
      | blank h' => exact ih (hl.suffix (List.suffix_cons _ _)) h' hr
      | stmt h => exact absurd h stmt_not_nl
    | stmt h hb ih =>
      obtain ⟨t, tl, e, -⟩ := Stmt.head h
      have hl' : _ := hl.resolve_left (by rw [e]; simp)
      have hs := stmt_extend h hl' Y
      generalize hall : _ ++ Y = all at h' hs
      cases h' with
      | done he => exact absurd hs (fun h => bodyEnd_not_stmt he h)
      | blank => exact absurd hs stmt_not_nl
      | stmt h2 hb2 =>
        obtain ⟨rfl, rfl⟩ := stmt_unique hs h2
        have := ih (hl.suffix (stmt_suffix h)) hb2 hr
        exact List.cons_prefix_cons.mpr ⟨rfl, this⟩
  · obtain ⟨rfl, rfl⟩ := body_unique (body_append h hr Y) h'
    exact ⟨List.prefix_refl _, fun _ => ⟨rfl, rfl⟩⟩

/-- More objects, after more statements of the last one. -/
def Longer (objs objs' : List ObjAst) : Prop :=
  objs = [] ∨ ∃ init name items more post, objs = init ++ [⟨name, items⟩] ∧
    objs' = init ++ ⟨name, items ++ more⟩ :: post

theorem objects_grow {objs toks} (h : Objects cfg lo objs toks) (hl : Lines toks) {Y : List Tok} {objs'}
    (h' : Objects cfg lo objs' (toks ++ Y)) : Longer objs objs' := by
  induction h generalizing objs' with
  | done => exact .inl rfl
  | @obj lo name items objs toks mid rest h1 h2 h3 h4 ih =>
    have hh := header_append h1 Y
    generalize hall : toks ++ Y = all at h' hh
    cases h' with
    | done => cases hh
    | @obj _ name' items' objs2 _ mid' rest2 g1 g2 g3 g4 =>
      obtain ⟨rfl, rfl⟩ := header_unique hh g1
      obtain ⟨⟨more, rfl⟩, hr⟩ := body_grow h2 (hl.suffix (header_suffix h1)) g2
      by_cases hrest : rest = []
      · subst hrest
        cases h4 with
        | done => exact .inr ⟨[], _, items, more, objs2, rfl, rfl⟩
        | obj h => cases h
      · obtain ⟨e, rfl⟩ := hr hrest
        rw [e] at g4 ⊢
        rcases ih (hl.suffix ((body_suffix h2).trans (header_suffix h1))) g4 with rfl | ⟨init, n, its, m, post, rfl, rfl⟩
        · exfalso
          cases h4
          exact hrest rfl
        · exact .inr ⟨_ :: init, n, its, m, post, rfl, rfl⟩

theorem libs_grow {toks libs rest} (h : Libs toks libs rest) (hl : Lines toks) {Y : List Tok} {libs' rest'}
    (h' : Libs (toks ++ Y) libs' rest') : libs <+: libs' ∧ (rest ≠ [] → libs' = libs ∧ rest' = rest ++ Y) := by
  by_cases hr : rest = []
  · refine ⟨?_, fun h => absurd hr h⟩
    induction h generalizing libs' with
    | done => exact List.nil_prefix
    | blank h ih =>
      cases h' with
      | done h => exact absurd rfl h
      | blank h' => exact ih (hl.suffix (List.suffix_cons _ _)) h' hr
    | @line names mid toks libs rest hn he h3 ih =>
      have hl' : (b!"mtllib" :: (names ++ mid)).getLast? = some nl := hl.resolve_left (by simp)
      have he' := endLine_extend (by decide) hn he hl' Y
      have hs : Lines toks := hl.suffix ((endLine_suffix he).trans ⟨b!"mtllib" :: names, by simp⟩)
      generalize e : b!"mtllib" :: (names ++ mid) ++ Y = all at h'
      have e2 : all = b!"mtllib" :: (names ++ (mid ++ Y)) := by rw [← e]; simp
      cases h' with
      | done h1 h2 => exact absurd (by rw [e2]; rfl) h2
      | blank => exact absurd (List.cons.inj e2).1 (by decide)
      | @line names2 mid2 toks2 libs2 _ hn2 he2 g3 =>
        obtain ⟨rfl, rfl⟩ := names_unique hn2 hn he2 he' (List.cons.inj e2).2
        exact (List.prefix_append_right_inj _).mpr (ih hs g3 hr)
  · obtain ⟨rfl, rfl⟩ := libs_unique (libs_append h hr Y) h'
    exact ⟨List.prefix_refl _, fun _ => ⟨rfl, rfl⟩⟩

section
variable {F : Type} [FloatSem F]

/-- The geometries found so far, and the one that is still open. -/
theorem geometries_grow (lo : Counts) (a : Acc F) (items : List Item) (b : Acc F)
    (hb : b = items.foldl (Acc.step lo) a) :
    (a.ofMaterial = [] ∧ a.geometries <+: b.geometries) ∨
      ∃ more, a.geometries ++ [⟨a.material, a.ofMaterial ++ more⟩] <+: b.geometries ++ [⟨b.material, b.ofMaterial⟩] := by
  induction items generalizing a with
  | nil => subst hb; exact .inr ⟨[], by simp⟩
  | cons it items ih =>
    have key : ∀ x, (a.step lo it).geometries = a.geometries → (a.step lo it).material = a.material →
        (a.step lo it).ofMaterial = a.ofMaterial ++ x →
        (a.ofMaterial = [] ∧ a.geometries <+: b.geometries) ∨
          ∃ more, a.geometries ++ [⟨a.material, a.ofMaterial ++ more⟩] <+:
            b.geometries ++ [⟨b.material, b.ofMaterial⟩] := fun x h1 h2 h3 => by
      rcases ih (a.step lo it) hb with ⟨h4, h5⟩ | ⟨more, h5⟩
      · rw [h1] at h5
        rw [h3] at h4
        exact .inl ⟨(List.append_eq_nil_iff.mp h4).1, h5⟩
      · rw [h1, h2, h3, List.append_assoc] at h5
        exact .inr ⟨_, h5⟩
    obtain ⟨d1, d2, d3, d4, d5, d6, d7, d8⟩ := defaults_data a
    cases it with
    | usemtl name =>
      by_cases hm : a.ofMaterial = []
      · have e : a.step lo (.usemtl name) = { a with material := some name } := by simp [Acc.step, hm]
        refine .inl ⟨hm, ?_⟩
        rcases ih _ hb with ⟨-, h5⟩ | ⟨more, h5⟩
        · rw [e] at h5; exact h5
        · rw [e] at h5
          have h6 : a.geometries <+: b.geometries ++ [⟨b.material, b.ofMaterial⟩] := (List.prefix_append _ _).trans h5
          have hlen := h5.length_le
          simp only [List.length_append, List.length_singleton] at hlen
          exact List.prefix_of_prefix_length_le h6 (List.prefix_append _ _) (by omega)
      · refine .inr ⟨[], ?_⟩
        have e : (a.step lo (.usemtl name)).geometries = a.geometries ++ [⟨a.material, a.ofMaterial⟩] := by
          simp [Acc.step, hm]
        rcases ih _ hb with ⟨-, h5⟩ | ⟨more, h5⟩
        · rw [e] at h5
          rw [List.append_nil]
          exact h5.trans (List.prefix_append _ _)
        · rw [e] at h5
          rw [List.append_nil]
          exact (List.prefix_append _ _).trans h5
    | p is => exact key _ d6 d7 (by simp only [Acc.step, Acc.addElements, d8]; rfl)
    | l is => exact key _ d6 d7 (by simp only [Acc.step, Acc.addElements, d8]; rfl)
    | f is => exact key _ d6 d7 (by simp only [Acc.step, Acc.addElements, d8]; rfl)
    | _ => exact key [] rfl rfl (by simp [Acc.step])

theorem object_grow (lo : Counts) (name : Bytes) (items more : List Item) :
    Grows (objMeaning lo ⟨name, items⟩ : Object F) (objMeaning lo ⟨name, items ++ more⟩) := by
  have h := Ext.fold lo (items.foldl (Acc.step lo) ({} : Acc F)) more
  rw [← List.foldl_append] at h
  refine ⟨rfl, h.vertices, h.textures, h.normals, h.groups, h.smoothing, h.elements, h.shapes, _, _, rfl, ?_⟩
  rcases geometries_grow lo (items.foldl (Acc.step lo) ({} : Acc F)) more _ rfl with ⟨h1, h2⟩ | ⟨x, h2⟩
  · rw [← List.foldl_append] at h2
    exact .inl ⟨h1, h2.trans (List.prefix_append _ _)⟩
  · rw [← List.foldl_append] at h2
    exact .inr ⟨x, h2⟩

end

end Verif.Spec.Obj

namespace Verif.Spec.Mtl

open Verif Verif.Mtl

/-- What a material becomes when more of its text is read: what had been set can be set again, but
it cannot be unset. -/
structure Grows {F : Type} (m m' : Material F) : Prop where
  name : m'.name = m.name
  density : m.optical_density.isSome → m'.optical_density.isSome
  ambient : m.map_ambient.isSome → m'.map_ambient.isSome
  diffuse : m.map_diffuse.isSome → m'.map_diffuse.isSome
  specular : m.map_specular.isSome → m'.map_specular.isSome
  emissive : m.map_emissive.isSome → m'.map_emissive.isSome
  exponent : m.map_specular_exponent.isSome → m'.map_specular_exponent.isSome
  bump : m.map_bump.isSome → m'.map_bump.isSome
  displacement : m.map_displacement.isSome → m'.map_displacement.isSome
  dissolve : m.map_dissolve.isSome → m'.map_dissolve.isSome
  decal : m.map_decal.isSome → m'.map_decal.isSome

theorem body_grow {items toks rest} (h : Body items toks rest) {Y : List Tok}
    {items' rest'} (h' : Body items' (toks ++ Y) rest') :
    items <+: items' ∧ (rest ≠ [] → items' = items ∧ rest' = rest ++ Y) := by
  by_cases hr : rest = []
  · refine ⟨?_, fun h => absurd hr h⟩
    induction h generalizing items' with
    | done => exact List.nil_prefix
    | blank h ih =>
      cases h' with
      | done h => exact absurd h (fun h => bodyEnd_not_nl h)
      | blank h' => exact ih h' hr
      | stmt h => exact absurd h stmt_not_nl
    | stmt h hb ih =>
      have hs := stmt_extend h Y
      generalize hall : _ ++ Y = all at h' hs
      cases h' with
      | done he => exact absurd hs (stmt_not_end he)
      | blank => exact absurd hs stmt_not_nl
      | stmt h2 hb2 =>
        obtain ⟨rfl, rfl⟩ := stmt_unique hs h2
        exact List.cons_prefix_cons.mpr ⟨rfl, ih hb2 hr⟩
  · obtain ⟨rfl, rfl⟩ := body_unique (body_append h Y (.inl hr)) h'
    exact ⟨List.prefix_refl _, fun _ => ⟨rfl, rfl⟩⟩

/-- More materials, after more statements of the last one. -/
def Longer (mats mats' : List MatAst) : Prop :=
  mats = [] ∨ ∃ init name items more post, mats = init ++ [⟨name, items⟩] ∧
    mats' = init ++ ⟨name, items ++ more⟩ :: post

theorem mats_grow {mats toks} (h : Mats mats toks) {Y : List Tok} {mats'}
    (h' : Mats mats' (toks ++ Y)) : Longer mats mats' := by
  induction h generalizing mats' with
  | done => exact .inl rfl
  | @mat name items mats toks rest h1 h2 ih =>
    cases h' with
    | @mat _ items' mats2 _ rest2 g1 g2 =>
      obtain ⟨⟨more, rfl⟩, hr⟩ := body_grow h1 g1
      by_cases hrest : rest = []
      · subst hrest
        cases h2 with
        | done => exact .inr ⟨[], name, items, more, mats2, rfl, rfl⟩
      · obtain ⟨e, rfl⟩ := hr hrest
        rw [e]
        rcases ih g2 with rfl | ⟨init, n, its, m, post, rfl, rfl⟩
        · exfalso
          cases h2
          exact hrest rfl
        · exact .inr ⟨_ :: init, n, its, m, post, rfl, rfl⟩

theorem file_grow {mats toks} (h : FileOk toks mats) {Y : List Tok} {mats'}
    (h' : FileOk (toks ++ Y) mats') : Longer mats mats' := by
  induction h with
  | blank h ih =>
    cases h' with
    | blank h' => exact ih h'
    | mats h => exact absurd h mats_not_nl
  | mats h =>
    generalize hall : _ ++ Y = all at h'
    cases h' with
    | blank h' =>
      cases h with
      | done => exact .inl rfl
      | mat => cases hall
    | mats h' => subst hall; exact mats_grow h h'

theorem last_isSome {α β : Type} (f : α → Option β) (a b : List α) (h : (last f a).isSome) :
    (last f (a ++ b)).isSome := by
  unfold last at h ⊢
  rw [List.getLast?_isSome] at h ⊢
  rw [List.filterMap_append]
  simp [h]

theorem material_grow {F : Type} [FloatSem F] (name : Bytes) (items more : List Item) :
    Grows (matMeaning ⟨name, items⟩ : Material F) (matMeaning ⟨name, items ++ more⟩) := by
  refine ⟨rfl, ?_, ?_, ?_, ?_, ?_, ?_, ?_, ?_, ?_, ?_⟩ <;> exact last_isSome _ _ _

end Verif.Spec.Mtl

namespace Verif.Props

open Verif Verif.Spec

variable {F : Type} [FloatSem F] {cfg : Obj.Cfg} {a b : Bytes}

/-- **C90** If complete lines are accepted, and more lines after them, then everything read from
the first lines is in the result for all of them, at the same place: the objects before the last
one are the same, and the last one has only grown. -/
theorem C90_grows_obj (hlen : (a ++ 10 :: b).length < 2 ^ 63) {r r' : Obj.ObjectSet F}
    (h : Obj.parse cfg (a ++ [10]) = .ok r) (h' : Obj.parse cfg (a ++ 10 :: b) = .ok r') :
    r.material_libraries <+: r'.material_libraries ∧
    (r.objects = [] ∨ (r'.material_libraries = r.material_libraries ∧
      ∃ before o o' after, r.objects = before ++ [o] ∧ r'.objects = before ++ o' :: after ∧ Spec.Obj.Grows o o')) := by
  have hlen' : (a ++ [10]).length < 2 ^ 63 := by simp at hlen ⊢; omega
  obtain ⟨file, ⟨rest, h1, h2⟩, rfl⟩ := (Obj.parse_ok_iff hlen').mp h
  obtain ⟨file', ⟨rest', g1, g2⟩, rfl⟩ := (Obj.parse_ok_iff hlen).mp h'
  rw [tokens_two_lines] at g1
  have hl : Lines (tokens (a ++ [10])) := .inr (tokens_line_last a)
  obtain ⟨p1, p2⟩ := Spec.Obj.libs_grow h1 hl g1
  refine ⟨p1, ?_⟩
  by_cases hr : rest = []
  · subst hr
    cases hf : file.objects with
    | nil => exact .inl (by simp [Spec.Obj.meaning, hf, Spec.Obj.objectsMeaning])
    | cons o os =>
      rw [hf] at h2
      cases h2 with
      | obj h => cases h
  · obtain ⟨e, rfl⟩ := p2 hr
    rcases Spec.Obj.objects_grow h2 (hl.suffix (Spec.Obj.libs_suffix h1)) g2 with e1 | ⟨init, n, its, m, post, e1, e2⟩
    · exact .inl (by simp [Spec.Obj.meaning, e1, Spec.Obj.objectsMeaning])
    · refine .inr ⟨e, ?_⟩
      simp only [Spec.Obj.meaning, e1, e2, objectsMeaning_append]
      exact ⟨_, _, _, _, rfl, rfl, Spec.Obj.object_grow _ _ _ _⟩

/-- **C90** The first lines of an accepted text are accepted, except that an object without any
element and material yet makes the program panic, and that `o` at the end of a line waits for a
name. -/
theorem C90_lines_obj (hlen : (a ++ 10 :: b).length < 2 ^ 63) {r' : Obj.ObjectSet F}
    (h' : Obj.parse cfg (a ++ 10 :: b) = .ok r') :
    (∃ r : Obj.ObjectSet F, Obj.parse cfg (a ++ [10]) = .ok r) ∨
    (Obj.parse cfg (a ++ [10]) : Out Obj.ErrorKind (Obj.ObjectSet F)) = .panic .materialIndex ∨
    (∃ e, (Obj.parse cfg (a ++ [10]) : Out Obj.ErrorKind (Obj.ObjectSet F)) = .err e ∧
      e.kind = .EndOfFile ∧ [b!"o", nl] <:+ tokens (a ++ [10])) := by
  have hlen' : (a ++ [10]).length < 2 ^ 63 := by simp at hlen ⊢; omega
  cases h : (Obj.parse cfg (a ++ [10]) : Out Obj.ErrorKind (Obj.ObjectSet F)) with
  | ok r => exact .inl ⟨r, rfl⟩
  | err e =>
    rcases C58_final_obj hlen h with h1 | h1
    · rw [h'] at h1; cases h1
    · exact .inr (.inr ⟨e, rfl, h1⟩)
  | panic x =>
    rcases C09_panic_sites_partial hlen' h with rfl | ⟨rfl, -⟩
    · exact .inr (.inl rfl)
    · have := C58_final_panic hlen h
      rw [h'] at this
      cases this
  | outOfFuel => exact absurd h (Obj.parse_not_outOfFuel hlen')

/-- **C90** The first lines of an accepted material library are accepted. The materials before
their last one are the same in the whole library, and the last one can have got more. -/
theorem C90_grows_mtl {r' : Mtl.MaterialSet F} (h' : Mtl.parse (a ++ 10 :: b) = .ok r') :
    ∃ r : Mtl.MaterialSet F, Mtl.parse (a ++ [10]) = .ok r ∧
    (r.materials = [] ∨ ∃ before m m' after, r.materials = before ++ [m] ∧
      r'.materials = before ++ m' :: after ∧ Spec.Mtl.Grows m m') := by
  rcases (C08_mtl_never_panics (a ++ [10]) : _ ∨ ∃ e, (Mtl.parse (a ++ [10]) : Out Mtl.ErrorKind (Mtl.MaterialSet F)) = .err e)
    with ⟨r, h⟩ | ⟨e, h⟩
  · refine ⟨r, h, ?_⟩
    obtain ⟨mats, g, rfl⟩ := Mtl.parse_ok_iff.mp h
    obtain ⟨mats', g', rfl⟩ := Mtl.parse_ok_iff.mp h'
    rw [tokens_two_lines] at g'
    rcases Spec.Mtl.file_grow g g' with rfl | ⟨init, n, its, m, post, rfl, rfl⟩
    · exact .inl rfl
    · refine .inr ?_
      simp only [Spec.Mtl.meaning, List.map_append, List.map_cons, List.map_nil]
      exact ⟨_, _, _, _, rfl, rfl, Spec.Mtl.material_grow _ _ _⟩
  · rw [C58_final_mtl h b] at h'
    cases h'

/-- The sample, cut after the first point of the second object. It has one point so
far; the whole text gives it two more, a second smoothing group and another material. -/
def growPart : Bytes :=
  b!"# a comment\nmtllib a.mtl b.mtl\n\nv 0 0 0\nv 1 0 0 2\nv 1 1 0\nv 0 1 0\nvt 0 1\nvn 0 0 1\n" ++
  b!"g left top\ns 1\nusemtl red\nf 1/1/1 2/1/1 3/1/1 4/1/1\ng\nl 1//1 2//1 3//1\np 1 2\n" ++
  b!"o second\nv 5 5 5\ng\np 5"

/-- What has been read of the second object by then. -/
def growObject : Obj.Object Bytes where
  name := b!"second"
  vertex_set := [⟨b!"5", b!"5", b!"5", b!"1"⟩]
  texture_vertex_set := []
  normal_vertex_set := []
  group_set := [⟨b!"default"⟩]
  smoothing_group_set := [⟨0⟩]
  element_set := [.Point (.V 0)]
  shape_set := [⟨0, [0], 0⟩]
  geometry_set := [⟨none, [0]⟩]

theorem growPart_parses : Obj.parse debug (growPart ++ [10]) =
    .ok ⟨sampleResult.material_libraries, sampleResult.objects.take 1 ++ [growObject]⟩ := by decide +kernel

theorem growPart_sample : sample = growPart ++ 10 :: b!"s off\nusemtl blue\np 5 5\n" := by decide +kernel

example : ∃ before o o' after, sampleResult.objects.take 1 ++ [growObject] = before ++ [o] ∧
    sampleResult.objects = before ++ o' :: after ∧ Spec.Obj.Grows o o' := by
  have h := C90_grows_obj (F := Bytes) (cfg := debug) (growPart_sample ▸ sample_length) growPart_parses
    (growPart_sample ▸ sample_parses)
  exact (h.2.resolve_left (by simp)).2

/-- An empty last geometry can go: the material `a` gets no element. -/
example :
    (Obj.parse debug (b!"v 0 0 0\nusemtl a" ++ [10]) : Out Obj.ErrorKind (Obj.ObjectSet Bytes)) =
      .ok ⟨[], [⟨[], [⟨b!"0", b!"0", b!"0", b!"1"⟩], [], [], [], [], [], [], [⟨some b!"a", []⟩]⟩]⟩ ∧
    (Obj.parse debug (b!"v 0 0 0\nusemtl a" ++ 10 :: b!"usemtl b\np 1") : Out Obj.ErrorKind (Obj.ObjectSet Bytes)) =
      .ok ⟨[], [⟨[], [⟨b!"0", b!"0", b!"0", b!"1"⟩], [], [], [⟨b!"default"⟩], [⟨0⟩], [.Point (.V 0)],
        [⟨0, [0], 0⟩], [⟨some b!"b", [0]⟩]⟩]⟩ := by decide +kernel

/-- Both exceptions occur in the lines of accepted texts. -/
example :
    (∃ r, (Obj.parse debug (b!"v 0 0 0" ++ 10 :: b!"p 1") : Out Obj.ErrorKind (Obj.ObjectSet Bytes)) = .ok r) ∧
    (Obj.parse debug (b!"v 0 0 0" ++ [10]) : Out Obj.ErrorKind (Obj.ObjectSet Bytes)) = .panic .materialIndex ∧
    (∃ r, (Obj.parse debug (b!"o" ++ 10 :: b!"\nusemtl a") : Out Obj.ErrorKind (Obj.ObjectSet Bytes)) = .ok r) ∧
    (∃ e, (Obj.parse debug (b!"o" ++ [10]) : Out Obj.ErrorKind (Obj.ObjectSet Bytes)) = .err e) := by
  refine ⟨⟨⟨[], [⟨[], [⟨b!"0", b!"0", b!"0", b!"1"⟩], [], [], [⟨b!"default"⟩], [⟨0⟩], [.Point (.V 0)],
    [⟨0, [0], 0⟩], [⟨none, [0]⟩]⟩]⟩, by decide +kernel⟩, by decide +kernel,
    ⟨⟨[], [⟨nl, [], [], [], [], [], [], [], [⟨some b!"a", []⟩]⟩]⟩, by decide +kernel⟩,
    ⟨⟨2, .EndOfFile, Spec.Obj.eofText⟩, by decide +kernel⟩⟩

/-- A material gets its decal after the first two lines. -/
example : ∃ r r' : Mtl.MaterialSet Bytes,
    Mtl.parse (b!"newmtl a\nbump x" ++ [10]) = .ok r ∧
    Mtl.parse (b!"newmtl a\nbump x" ++ 10 :: b!"decal y\nnewmtl b\n") = .ok r' ∧
    r.materials.map (fun m => (m.name, m.map_bump, m.map_decal)) = [(b!"a", some b!"x", none)] ∧
    r'.materials.map (fun m => (m.name, m.map_bump, m.map_decal)) =
      [(b!"a", some b!"x", some b!"y"), (b!"b", none, none)] := by
  refine ⟨⟨[{ (Mtl.Material.new : Mtl.Material Bytes) with name := b!"a", map_bump := some b!"x" }]⟩,
    ⟨[{ (Mtl.Material.new : Mtl.Material Bytes) with name := b!"a", map_bump := some b!"x", map_decal := some b!"y" },
      { (Mtl.Material.new : Mtl.Material Bytes) with name := b!"b" }]⟩, ?_, ?_, ?_, ?_⟩ <;> decide +kernel

end Verif.Props
