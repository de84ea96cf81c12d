import Verif.Props.Grow
import Verif.Props.Size
import Verif.Proofs.Splice

/-!
# What later lines see of earlier lines

Lines have been read, and more lines follow. What these are taken for depends on six numbers: how
many vertices, texture vertices and normals the object under construction has, and how many the
objects before it have. Nothing else of the earlier lines matters, and all six matter.
-/

namespace Verif.Spec.Obj

open Verif Verif.Obj

variable {cfg : Cfg} {lo hi : Counts}

/-- Statements of complete lines are the same statements when more follows. -/
theorem body_run {items toks} (h : Body cfg lo hi items toks []) (hl : Lines toks) (Y : List Tok) :
    Spec.Obj.Run cfg lo hi items (toks ++ Y) Y := by
  generalize hr : ([] : List Tok) = rest at h
  induction h with
  | done => subst hr; exact .nil
  | blank _ ih => exact .blank (ih (hl.suffix (List.suffix_cons _ _)) hr)
  | stmt h _ ih =>
    obtain ⟨t, tl, e, -⟩ := Stmt.head h
    have hl' : _ := hl.resolve_left (by rw [e]; simp)
    exact .stmt (stmt_extend h hl' Y) (ih (hl.suffix (stmt_suffix h)) hr)

/-- The rest `Y` of the text is read by the object under construction: `lo` and `hi` are the counts. -/
structure Continues (cfg : Cfg) (lo : Counts) (init : List ObjAst) (name : Bytes) (items : List Item)
    (lo' hi' : Counts) (toks Y : List Tok) : Prop where
  ok : ∀ more rest objs, Body cfg lo' hi' more Y rest → Objects cfg (hi' + countsOf more) objs rest →
    Objects cfg lo (init ++ ⟨name, items ++ more⟩ :: objs) (toks ++ Y)
  err : ∀ more rest k m u, Body cfg lo' hi' more Y rest → ObjectsErr cfg (hi' + countsOf more) rest k m u →
    ObjectsErr cfg lo (toks ++ Y) k m u
  panic : ∀ more rest x, Body cfg lo' hi' more Y rest → ObjectsPanic cfg (hi' + countsOf more) rest x →
    ObjectsPanic cfg lo (toks ++ Y) x
  bodyErr : ∀ k m u, BodyErr cfg lo' hi' Y k m u → ObjectsErr cfg lo (toks ++ Y) k m u
  bodyPanic : ∀ u, BodyPanic cfg lo' hi' Y u → ObjectsPanic cfg lo (toks ++ Y) .indexSubOverflow

theorem bare_append {a b : List Item} (h : ¬ Bare a) : ¬ Bare (a ++ b) :=
  fun hb => h fun it hit => hb it (List.mem_append_left _ hit)

theorem objects_continue {objs toks} (h : Objects cfg lo objs toks) (hl : Lines toks) (hne : objs ≠ []) :
    ∃ init name items, objs = init ++ [⟨name, items⟩] ∧ ∀ Y,
      Continues cfg lo init name items (lo + countsOf (init.flatMap ObjAst.items))
        (lo + countsOf (init.flatMap ObjAst.items) + countsOf items) toks Y := by
  induction h with
  | done => exact absurd rfl hne
  | @obj lo name items objs toks mid rest h1 h2 h3 h4 ih =>
    have hlm := hl.suffix (header_suffix h1)
    have hlr := hlm.suffix (body_suffix h2)
    by_cases ho : objs = []
    · subst ho
      cases h4
      refine ⟨[], name, items, rfl, fun Y => ?_⟩
      have e : lo + countsOf (([] : List ObjAst).flatMap ObjAst.items) = lo := by
        simp [countsOf, counts_add]
      rw [e]
      have hh := header_append h1 Y
      have hr := body_run h2 hlm Y
      have ea : after lo items = lo + countsOf items := counts_fold lo items
      rw [← ea]
      have ec : ∀ more, after lo items + countsOf more = lo + countsOf (items ++ more) := fun more => by
        rw [ea, countsOf_append, counts_add_assoc]
      have hb : ∀ more, ¬ Bare (items ++ more) := fun more => bare_append h3
      exact {
        ok := fun more rest objs hB hO => .obj hh (hr.body hB) (hb _) (ec more ▸ hO)
        err := fun more rest k m u hB hO => .later hh (hr.body hB) (hb _) (ec more ▸ hO)
        panic := fun more rest x hB hO => .later hh (hr.body hB) (hb _) (ec more ▸ hO)
        bodyErr := fun k m u hB => .body hh (hr.err hB)
        bodyPanic := fun u hB => .body hh (hr.panic hB) }
    · obtain ⟨init, n, its, rfl, hc⟩ := ih hlr ho
      refine ⟨⟨name, items⟩ :: init, n, its, rfl, fun Y => ?_⟩
      have hrest : rest ≠ [] := by
        rintro rfl
        cases init <;> cases h4 with | obj h => cases h
      have hh := header_append h1 Y
      have hB := body_append h2 hrest Y
      have e : lo + countsOf ((⟨name, items⟩ :: init : List ObjAst).flatMap ObjAst.items) =
          lo + countsOf items + countsOf (init.flatMap ObjAst.items) := by
        rw [List.flatMap_cons, countsOf_append, counts_add_assoc]
      rw [e]
      have hY := hc Y
      exact {
        ok := fun more r objs b o => .obj hh hB h3 (hY.ok more r objs b o)
        err := fun more r k m u b o => .later hh hB h3 (hY.err more r k m u b o)
        panic := fun more r x b o => .later hh hB h3 (hY.panic more r x b o)
        bodyErr := fun k m u b => .later hh hB h3 (hY.bodyErr k m u b)
        bodyPanic := fun u b => .later hh hB h3 (hY.bodyPanic u b) }

theorem libs_continue {toks libs} (h : Libs toks libs []) (hl : Lines toks) {Y libs' rest} (h' : Libs Y libs' rest) :
    Libs (toks ++ Y) (libs ++ libs') rest := by
  generalize hr : ([] : List Tok) = e at h
  induction h with
  | done => subst hr; exact h'
  | blank _ ih => exact .blank (ih (hl.suffix (List.suffix_cons _ _)) hr)
  | @line names mid toks libs rest hn he h3 ih =>
    have hl' : (b!"mtllib" :: (names ++ mid)).getLast? = some nl := hl.resolve_left (by simp)
    have he' := endLine_extend (by decide) hn he hl' Y
    have hs : Lines toks := hl.suffix ((endLine_suffix he).trans ⟨b!"mtllib" :: names, by simp⟩)
    have := Libs.line hn he' (ih hs hr)
    simpa using this

end Verif.Spec.Obj

namespace Verif.Props

open Verif Verif.Spec Verif.Spec.Obj Verif.Obj

variable {F : Type} [FloatSem F] {cfg : Obj.Cfg}

/-! ## The six numbers -/

/-- How many vertices, texture vertices and normals an object has. -/
def objectCounts (o : Object F) : Counts := ⟨o.vertex_set.length, o.texture_vertex_set.length, o.normal_vertex_set.length⟩

/-- What the lines behind a text can see of its result: whether there is an object, how much the
objects before the last one define, and how much the last one. -/
def visible (r : ObjectSet F) : Option (Counts × Counts) :=
  r.objects.getLast?.map fun o => (totals (⟨[], r.objects.dropLast⟩ : ObjectSet F), objectCounts o)

theorem objectCounts_meaning (lo : Counts) (o : ObjAst) : objectCounts (objMeaning lo o : Object F) = countsOf o.items := by
  have hd := data_of (F := F) lo o.items
  simp only [objectCounts, objMeaning, hd.vertices, hd.textures, hd.normals, countsOf_eq (F := F) o.items]

theorem totals_objects (libs : List Bytes) (objs : List ObjAst) :
    totals (⟨libs, objectsMeaning {} objs⟩ : ObjectSet F) = countsOf (objs.flatMap ObjAst.items) :=
  totals_meaning (F := F) ⟨libs, objs⟩

theorem visible_snoc (libs : List Bytes) (init : List ObjAst) (o : ObjAst) :
    visible (meaning ⟨libs, init ++ [o]⟩ : ObjectSet F) =
      some (countsOf (init.flatMap ObjAst.items), countsOf o.items) := by
  simp only [visible, meaning, objectsMeaning_append, objectsMeaning, List.getLast?_append, List.getLast?_singleton,
    Option.some_or, Option.map_some, List.dropLast_concat, totals_objects, objectCounts_meaning]

/-! ## What is added -/

/-- Two results and what they have become after more lines: the same libraries, the same vertices,
texture vertices, normals and elements of the last object, and the same objects were added. -/
structure SameAdded (r r' q q' : ObjectSet F) : Prop where
  libraries : ∃ libs, r'.material_libraries = r.material_libraries ++ libs ∧
    q'.material_libraries = q.material_libraries ++ libs
  objects : ∃ added, r'.objects = r'.objects.take r.objects.length ++ added ∧
    q'.objects = q'.objects.take q.objects.length ++ added
  last : ∀ o ∈ r.objects.getLast?, ∃ o' ∈ r'.objects[r.objects.length - 1]?,
    ∀ p ∈ q.objects.getLast?, ∃ p' ∈ q'.objects[q.objects.length - 1]?,
    ∃ vs ts ns es,
      o'.vertex_set = o.vertex_set ++ vs ∧ p'.vertex_set = p.vertex_set ++ vs ∧
      o'.texture_vertex_set = o.texture_vertex_set ++ ts ∧ p'.texture_vertex_set = p.texture_vertex_set ++ ts ∧
      o'.normal_vertex_set = o.normal_vertex_set ++ ns ∧ p'.normal_vertex_set = p.normal_vertex_set ++ ns ∧
      o'.element_set = o.element_set ++ es ∧ p'.element_set = p.element_set ++ es

theorem line_of {a b : Bytes} {u : List Tok} (h : u <:+ tokens b) :
    1 + nls (tokens (a ++ 10 :: b)) - nls u = (a ++ [10]).count 10 + (1 + nls (tokens b) - nls u) := by
  have h1 : nls (tokens (a ++ [10])) = (a ++ [10]).count 10 := nls_tokens _
  have h2 := nls_suffix h
  rw [tokens_two_lines, nls_append, h1]
  omega

theorem last_added (lo : Counts) (name name' : Bytes) (items items' more : List Item) :
    ∃ vs ts ns es,
      (objMeaning lo ⟨name, items ++ more⟩ : Object F).vertex_set = (objMeaning lo ⟨name, items⟩ : Object F).vertex_set ++ vs ∧
      (objMeaning lo ⟨name', items' ++ more⟩ : Object F).vertex_set = (objMeaning lo ⟨name', items'⟩ : Object F).vertex_set ++ vs ∧
      (objMeaning lo ⟨name, items ++ more⟩ : Object F).texture_vertex_set =
        (objMeaning lo ⟨name, items⟩ : Object F).texture_vertex_set ++ ts ∧
      (objMeaning lo ⟨name', items' ++ more⟩ : Object F).texture_vertex_set =
        (objMeaning lo ⟨name', items'⟩ : Object F).texture_vertex_set ++ ts ∧
      (objMeaning lo ⟨name, items ++ more⟩ : Object F).normal_vertex_set =
        (objMeaning lo ⟨name, items⟩ : Object F).normal_vertex_set ++ ns ∧
      (objMeaning lo ⟨name', items' ++ more⟩ : Object F).normal_vertex_set =
        (objMeaning lo ⟨name', items'⟩ : Object F).normal_vertex_set ++ ns ∧
      (objMeaning lo ⟨name, items ++ more⟩ : Object F).element_set = (objMeaning lo ⟨name, items⟩ : Object F).element_set ++ es ∧
      (objMeaning lo ⟨name', items' ++ more⟩ : Object F).element_set =
        (objMeaning lo ⟨name', items'⟩ : Object F).element_set ++ es := by
  have d := data_of (F := F) lo items
  have d' := data_of (F := F) lo items'
  have e := data_of (F := F) lo (items ++ more)
  have e' := data_of (F := F) lo (items' ++ more)
  refine ⟨more.filterMap Item.vertex?, more.filterMap Item.texture?, more.filterMap Item.normal?,
    more.flatMap (Item.elements lo), ?_⟩
  simp only [objMeaning, d.vertices, d.textures, d.normals, d.elements, d'.vertices, d'.textures, d'.normals, d'.elements,
    e.vertices, e.textures, e.normals, e.elements, e'.vertices, e'.textures, e'.normals, e'.elements,
    List.filterMap_append, List.flatMap_append, and_self]

/-! ## The state after a text -/

/-- How the text goes on after complete lines that were accepted. -/
theorem after_lines {a : Bytes} (hlen : (a ++ [10]).length < 2 ^ 63) {r : ObjectSet F}
    (h : Obj.parse cfg (a ++ [10]) = .ok r) :
    ∃ file, r = meaning file ∧ FileOk cfg (tokens (a ++ [10])) file ∧
      ((file.objects = [] ∧ ∀ b, ∀ libs rest, Libs (tokens b) libs rest →
          Libs (tokens (a ++ 10 :: b)) (file.libs ++ libs) rest) ∨
        ∃ init name items, file.objects = init ++ [⟨name, items⟩] ∧ ∀ b, ∃ rest,
          Libs (tokens (a ++ 10 :: b)) file.libs (rest ++ tokens b) ∧
          Continues cfg {} init name items (countsOf (init.flatMap ObjAst.items))
            (countsOf (init.flatMap ObjAst.items) + countsOf items) rest (tokens b)) := by
  obtain ⟨file, ⟨rest, h1, h2⟩, rfl⟩ := (Obj.parse_ok_iff hlen).mp h
  refine ⟨file, rfl, ⟨rest, h1, h2⟩, ?_⟩
  have hl : Lines (tokens (a ++ [10])) := .inr (tokens_line_last a)
  by_cases ho : file.objects = []
  · refine .inl ⟨ho, fun b libs rest' hL => ?_⟩
    rw [ho] at h2
    cases h2
    rw [tokens_two_lines]
    exact libs_continue h1 hl hL
  · obtain ⟨init, name, items, e, hc⟩ := objects_continue h2 (hl.suffix (libs_suffix h1)) ho
    refine .inr ⟨init, name, items, e, fun b => ⟨rest, ?_, ?_⟩⟩
    · rw [tokens_two_lines]
      refine libs_append h1 ?_ _
      rintro rfl
      generalize file.objects = objs at h2 ho
      cases h2 with
      | done => exact ho rfl
      | obj h => cases h
    · have := hc (tokens b)
      rwa [counts_zero_add] at this

/-- **C97** Two texts of complete lines are accepted and have the same six numbers (or both have no
object yet). Whatever lines follow, they are taken in the same way after both: both are accepted and
the same is added, or both are rejected with the same kind and message on the same line, counted
from the end of the first lines, or both panic. -/
theorem C97_same {a a' b : Bytes} (hlen : (a ++ 10 :: b).length < 2 ^ 63) (hlen' : (a' ++ 10 :: b).length < 2 ^ 63)
    {r q : ObjectSet F} (h : Obj.parse cfg (a ++ [10]) = .ok r) (h' : Obj.parse cfg (a' ++ [10]) = .ok q)
    (hv : visible r = visible q) :
    (∃ r' q', Obj.parse cfg (a ++ 10 :: b) = .ok r' ∧ Obj.parse cfg (a' ++ 10 :: b) = .ok q' ∧ SameAdded r r' q q') ∨
    (∃ n kind message,
      (Obj.parse cfg (a ++ 10 :: b) : Out ErrorKind (ObjectSet F)) = .err ⟨(a ++ [10]).count 10 + n, kind, message⟩ ∧
      (Obj.parse cfg (a' ++ 10 :: b) : Out ErrorKind (ObjectSet F)) = .err ⟨(a' ++ [10]).count 10 + n, kind, message⟩) ∨
    (∃ site, (Obj.parse cfg (a ++ 10 :: b) : Out ErrorKind (ObjectSet F)) = .panic site ∧
      (Obj.parse cfg (a' ++ 10 :: b) : Out ErrorKind (ObjectSet F)) = .panic site) := by
  have hl1 : (a ++ [10]).length < 2 ^ 63 := by simp at hlen ⊢; omega
  have hl2 : (a' ++ [10]).length < 2 ^ 63 := by simp at hlen' ⊢; omega
  obtain ⟨file, rfl, -, hs⟩ := after_lines hl1 h
  obtain ⟨file', rfl, -, hs'⟩ := after_lines hl2 h'
  rcases hs with ⟨e, hs⟩ | ⟨init, name, items, e, hs⟩
  · rcases hs' with ⟨e', hs'⟩ | ⟨init', name', items', e', hs'⟩
    · obtain ⟨libs, rest, hL⟩ := libs_total (tokens b)
      have g := hs b _ _ hL
      have g' := hs' b _ _ hL
      rcases objects_total cfg {} rest with ⟨objs, ho⟩ | ⟨k, m, u, ho⟩ | ⟨x, ho⟩
      · refine .inl ⟨_, _, parse_ok_of hlen (file := ⟨_, objs⟩) ⟨_, g, ho⟩,
          parse_ok_of hlen' (file := ⟨_, objs⟩) ⟨_, g', ho⟩, ?_, ?_, ?_⟩
        · exact ⟨libs, rfl, rfl⟩
        · simp [meaning, e, e', objectsMeaning]
        · simp [meaning, e, objectsMeaning]
      · have hu := (objectsErr_suffix ho).trans (libs_suffix hL)
        refine .inr (.inl ⟨1 + nls (tokens b) - nls u, k, m, ?_, ?_⟩)
        · rw [parse_err_of hlen ⟨_, _, g, ho⟩, line_of hu]
        · rw [parse_err_of hlen' ⟨_, _, g', ho⟩, line_of hu]
      · exact .inr (.inr ⟨x, parse_panic_of hlen ⟨_, _, g, ho⟩, parse_panic_of hlen' ⟨_, _, g', ho⟩⟩)
    · exfalso
      obtain ⟨l, o⟩ := file
      obtain ⟨l', o'⟩ := file'
      simp only at e e'
      rw [e, e', visible_snoc] at hv
      simp [visible, meaning, objectsMeaning] at hv
  · rcases hs' with ⟨e', hs'⟩ | ⟨init', name', items', e', hs'⟩
    · exfalso
      obtain ⟨l, o⟩ := file
      obtain ⟨l', o'⟩ := file'
      simp only at e e'
      rw [e, e', visible_snoc] at hv
      simp [visible, meaning, objectsMeaning] at hv
    · obtain ⟨l, o⟩ := file
      obtain ⟨l', o'⟩ := file'
      simp only at e e'
      subst e
      subst e'
      rw [visible_snoc, visible_snoc] at hv
      simp only [Option.some.injEq, Prod.mk.injEq] at hv
      obtain ⟨hv1, hv2⟩ := hv
      obtain ⟨rest, g, hc⟩ := hs b
      obtain ⟨rest', g', hc'⟩ := hs' b
      simp only at g g'
      rw [← hv1, ← hv2] at hc'
      have hshift : ∀ {k : ErrorKind} {m : Bytes} {u : List Tok}, u <:+ tokens b →
          ObjectsErr cfg {} (rest ++ tokens b) k m u → ObjectsErr cfg {} (rest' ++ tokens b) k m u →
          ∃ n kind message,
            (Obj.parse cfg (a ++ 10 :: b) : Out ErrorKind (ObjectSet F)) = .err ⟨(a ++ [10]).count 10 + n, kind, message⟩ ∧
            (Obj.parse cfg (a' ++ 10 :: b) : Out ErrorKind (ObjectSet F)) =
              .err ⟨(a' ++ [10]).count 10 + n, kind, message⟩ := by
        intro k m u hu h1 h2
        refine ⟨1 + nls (tokens b) - nls u, k, m, ?_, ?_⟩
        · rw [parse_err_of hlen ⟨_, _, g, h1⟩, line_of hu]
        · rw [parse_err_of hlen' ⟨_, _, g', h2⟩, line_of hu]
      rcases body_total cfg (countsOf (init.flatMap ObjAst.items))
        (countsOf (init.flatMap ObjAst.items) + countsOf items) (tokens b) with ⟨more, u, hb⟩ | ⟨k, m, u, hb⟩ | ⟨u, hb⟩
      · rcases objects_total cfg (countsOf (init.flatMap ObjAst.items) + countsOf items + countsOf more) u with
          ⟨objs, ho⟩ | ⟨k, m, v, ho⟩ | ⟨x, ho⟩
        · refine .inl ⟨_, _, parse_ok_of hlen (file := ⟨l, _⟩) ⟨_, g, hc.ok _ _ _ hb ho⟩,
            parse_ok_of hlen' (file := ⟨l', _⟩) ⟨_, g', hc'.ok _ _ _ hb ho⟩, ⟨[], by simp [meaning], by simp [meaning]⟩, ?_, ?_⟩
          · refine ⟨objectsMeaning (countsOf (init.flatMap ObjAst.items) + countsOf items + countsOf more) objs, ?_, ?_⟩
            · simp only [meaning, objectsMeaning_append, objectsMeaning, List.length_append, List.length_singleton,
                counts_zero_add, countsOf_append, ← counts_add_assoc]
              rw [show ∀ (x : Object F) (A B : List (Object F)), A ++ x :: B = (A ++ [x]) ++ B from by simp,
                List.take_left' (by simp [objectsMeaning_length])]
            · simp only [meaning, objectsMeaning_append, objectsMeaning, List.length_append, List.length_singleton,
                counts_zero_add, countsOf_append, ← counts_add_assoc, ← hv1, ← hv2]
              rw [show ∀ (x : Object F) (A B : List (Object F)), A ++ x :: B = (A ++ [x]) ++ B from by simp,
                List.take_left' (by simp [objectsMeaning_length])]
          · have el : ∀ (A B : List (Object F)) (x : Object F) (n : Nat), n = A.length → (A ++ x :: B)[n]? = some x := by
              rintro A B x n rfl; simp
            simp only [meaning, objectsMeaning_append, objectsMeaning, List.getLast?_append, List.getLast?_singleton,
              Option.some_or, counts_zero_add, Option.mem_def, Option.some.injEq, forall_eq', ← hv1]
            rw [el _ _ _ _ (by simp), el _ _ _ _ (by simp)]
            simp only [Option.some.injEq, exists_eq_left']
            exact last_added _ _ _ _ _ _
        · exact .inr (.inl (hshift ((objectsErr_suffix ho).trans (body_suffix hb)) (hc.err _ _ _ _ _ hb ho)
            (hc'.err _ _ _ _ _ hb ho)))
        · exact .inr (.inr ⟨x, parse_panic_of hlen ⟨_, _, g, hc.panic _ _ _ hb ho⟩,
            parse_panic_of hlen' ⟨_, _, g', hc'.panic _ _ _ hb ho⟩⟩)
      · exact .inr (.inl (hshift (bodyErr_suffix hb) (hc.bodyErr _ _ _ hb) (hc'.bodyErr _ _ _ hb)))
      · exact .inr (.inr ⟨_, parse_panic_of hlen ⟨_, _, g, hc.bodyPanic _ hb⟩,
          parse_panic_of hlen' ⟨_, _, g', hc'.bodyPanic _ hb⟩⟩)

/-! ## All six numbers matter -/

theorem showNat_length_lt {n k : Nat} (h : n < 10 ^ k) (hk : 0 < k) : (showNat n).length ≤ k := by
  have key : ∀ (fuel n k : Nat) (acc : Bytes), n < 10 ^ k → 0 < k → (showNatAux fuel n acc).length ≤ k + acc.length := by
    intro fuel
    induction fuel with
    | zero => intro n k acc h hk; simp [showNatAux]
    | succ fuel ih =>
      intro n k acc h hk
      unfold showNatAux
      simp only
      split
      · simp only [List.length_cons]; omega
      · obtain ⟨k, rfl⟩ : ∃ j, k = j + 1 := ⟨k - 1, by omega⟩
        have hk' : 0 < k := by
          rcases Nat.eq_zero_or_pos k with rfl | h'
          · simp at h; omega
          · exact h'
        have := ih (n / 10) k (UInt8.ofNat (48 + n % 10) :: acc) (by rw [pow_succ] at h; omega) hk'
        simp only [List.length_cons] at this
        omega
  simpa [showNat] using key (n + 1) n k [] h hk

/-- A vertex, a texture vertex, a normal and a face with one reference, three times. -/
def probe (x : Ref) : Bytes := b!"v 0 0 0\nvt 0\nvn 0 0 0" ++ 10 :: (b!"f" ++ 32 :: (x.text ++ 32 :: (x.text ++ 32 :: x.text)))

theorem tokens_probe (x : Ref) : tokens (probe x) =
    b!"v" :: b!"0" :: b!"0" :: b!"0" :: nl :: b!"vt" :: b!"0" :: nl :: b!"vn" :: b!"0" :: b!"0" :: b!"0" :: nl ::
      b!"f" :: ([x.text, x.text, x.text] ++ []) := by
  have h2 := tokensOf_word byteAlphabet x.text [] (word_ref x).1 (word_ordinary (word_ref x)) (by simp)
  rw [List.append_nil, tokensOf_nil] at h2
  rw [probe, tokens_append_nl, tokens_token_blank (t := b!"f") (.inl ⟨by simp, by simp⟩),
    tokens_token_blank (.inl (word_ref x)), tokens_token_blank (.inl (word_ref x)),
    show tokens x.text = [x.text] from h2,
    show tokens b!"v 0 0 0\nvt 0\nvn 0 0 0" = [b!"v", b!"0", b!"0", b!"0", nl, b!"vt", b!"0", nl, b!"vn", b!"0", b!"0", b!"0"]
      from by decide +kernel]
  rfl

/-- One more of each. -/
def more1 (c : Counts) : Counts := ⟨c.v + 1, c.vt + 1, c.vn + 1⟩

theorem probe_run (lo hi : Counts) (x : Ref) : Spec.Obj.Run cfg lo hi
    [.v b!"0" b!"0" b!"0" none, .vt b!"0" none none, .vn b!"0" b!"0" b!"0"] (tokens (probe x))
    (b!"f" :: ([x.text, x.text, x.text] ++ [])) := by
  have hf : isFloat b!"0" = true := by decide
  rw [tokens_probe]
  exact .stmt (.v3 hf hf hf (noFloat_nl _)) (.blank (.stmt (.vt1 hf (noFloat_nl _)) (.blank (.stmt (.vn hf hf hf) (.blank .nil)))))

theorem probe_after (hi : Counts) : after hi
    [.v b!"0" b!"0" b!"0" none, .vt b!"0" none none, .vn b!"0" b!"0" b!"0"] = more1 hi := by
  simp [after, Item.counts, counts_add, more1]

theorem pieceOk_mono {lo hi lo' hi' : Nat} {p : Bytes} {o : Option Nat} (h : PieceOk lo hi p o) (h1 : lo' ≤ lo)
    (h2 : hi ≤ hi') : PieceOk lo' hi' p o := by
  rcases h with h | ⟨k, h, ⟨g1, g2, g3⟩, e⟩
  · exact .inl h
  · exact .inr ⟨k, h, ⟨g1, by omega, by omega⟩, e⟩

/-- After complete lines, the probe is accepted exactly if its references are valid. -/
theorem probe_accepted {a : Bytes} {x : Ref} (hlen : (a ++ 10 :: probe x).length < 2 ^ 63) {libs : List Bytes}
    {init : List ObjAst} {name : Bytes} {items : List Item} {lo hi : Counts} {rest : List Tok} (hs : Small (more1 hi))
    (hx : ValidRef {} ⟨2 ^ 63 - 1, 2 ^ 63 - 1, 2 ^ 63 - 1⟩ x)
    (hL : Libs (tokens (a ++ 10 :: probe x)) libs (rest ++ tokens (probe x)))
    (hc : Continues cfg {} init name items lo hi rest (tokens (probe x))) :
    (∃ r : ObjectSet F, Obj.parse cfg (a ++ 10 :: probe x) = .ok r) ↔ ValidRef lo (more1 hi) x := by
  have hrun := probe_run (cfg := cfg) lo hi x
  have ha := probe_after hi
  constructor
  · rintro ⟨r, h⟩
    rcases ref_total cfg lo (more1 hi) x.text with ⟨y, hy⟩ | ⟨k, m, hy⟩ | hy
    · have e : y = x := by
        have h1 : RefTok {} ⟨2 ^ 63 - 1, 2 ^ 63 - 1, 2 ^ 63 - 1⟩ x.text y :=
          ⟨hy.few, pieceOk_mono hy.v (by simp) (Nat.le_pred_of_lt hs.1), pieceOk_mono hy.vt (by simp) (Nat.le_pred_of_lt hs.2.1),
            pieceOk_mono hy.vn (by simp) (Nat.le_pred_of_lt hs.2.2)⟩
        exact refTok_unique h1 (refTok_text hx ⟨by simp, by simp, by simp⟩)
      exact e ▸ refTok_validRef hy
    · exfalso
      have := hc.bodyErr _ _ _ (hrun.err (by
        rw [ha]; exact .here (.f_few (ts := []) (refs := []) (by simp) .nil (.inl ⟨_, _, _, rfl, hy⟩))))
      rw [parse_err_of hlen ⟨_, _, hL, this⟩] at h
      cases h
    · exfalso
      have := hc.bodyPanic _ (hrun.panic (by rw [ha]; exact .here (.f (ts := []) (refs := []) .nil hy)))
      rw [parse_panic_of hlen ⟨_, _, hL, this⟩] at h
      cases h
  · intro hv
    have ht := refTok_text hv hs
    have hb := hrun.body (items := [.f [x, x, x]]) (rest := []) (by
      rw [ha]
      exact .stmt (.f (refs := [x, x, x]) (by simp) (.cons ht (.cons ht (.cons ht .nil)))
        (by intro p hp q hq; simp at hp hq; rw [hp, hq]) (.inr ⟨rfl, rfl⟩)) (.done (.inl rfl)))
    exact ⟨_, parse_ok_of hlen (file := ⟨libs, _⟩) ⟨_, hL, hc.ok _ _ _ hb .done⟩⟩

/-- The counts after a text are below its length. -/
theorem visible_small {a : Bytes} (hlen : a.length + 1 < 2 ^ 63) {file : FileAst}
    (h : (Obj.parse cfg a : Out ErrorKind (ObjectSet F)) = .ok (meaning file))
    {init : List ObjAst} {name : Bytes} {items : List Item} (e : file.objects = init ++ [⟨name, items⟩]) :
    Small (more1 (countsOf (init.flatMap ObjAst.items) + countsOf items)) := by
  have h1 := C59_bytes (by omega) h
  have h2 := totals_meaning (F := F) file
  rw [e] at h2
  simp only [List.flatMap_append, countsOf_append, List.flatMap_cons, List.flatMap_nil, List.append_nil] at h2
  rw [← h2]
  have key : ∀ (objs : List (Object F)), (objs.map fun o => o.vertex_set.length).sum ≤ (objs.map tableSize).sum ∧
      (objs.map fun o => o.texture_vertex_set.length).sum ≤ (objs.map tableSize).sum ∧
      (objs.map fun o => o.normal_vertex_set.length).sum ≤ (objs.map tableSize).sum := by
    intro objs
    induction objs with
    | nil => simp
    | cons o os ih => simp only [List.map_cons, List.sum_cons, tableSize]; omega
  obtain ⟨k1, k2, k3⟩ := key (meaning file : ObjectSet F).objects
  refine ⟨?_, ?_, ?_⟩ <;> simp only [more1, totals] <;> omega

theorem ref_length {x : Ref} (hx : ValidRef {} ⟨2 ^ 63 - 1, 2 ^ 63 - 1, 2 ^ 63 - 1⟩ x) : x.text.length ≤ 59 := by
  obtain ⟨v, vt, vn⟩ := x
  obtain ⟨h1, h2, h3⟩ := hx
  have l : ∀ n, n ≤ 2 ^ 63 - 1 → (showNat n).length ≤ 19 := fun n hn => showNat_length_lt (by omega) (by omega)
  have l1 := l v h1.2
  cases vt <;> cases vn <;> simp only [Ref.text, List.length_append, List.length_cons, List.length_nil]
  · omega
  · have := l _ (h3 _ rfl).2; omega
  · have := l _ (h2 _ rfl).2; omega
  · have := l _ (h3 _ rfl).2; have := l _ (h2 _ rfl).2; omega

theorem probe_length {x : Ref} (hx : ValidRef {} ⟨2 ^ 63 - 1, 2 ^ 63 - 1, 2 ^ 63 - 1⟩ x) : (probe x).length ≤ 210 := by
  have := ref_length hx
  simp only [probe, List.length_append, List.length_cons, List.length_nil]
  omega

/-- Validity of the references that are one above the given numbers. -/
theorem valid_counts {lo hi c : Counts} : ValidRef lo hi ⟨c.v + 1, some (c.vt + 1), some (c.vn + 1)⟩ ↔
    (lo.v ≤ c.v ∧ c.v + 1 ≤ hi.v) ∧ (lo.vt ≤ c.vt ∧ c.vt + 1 ≤ hi.vt) ∧ lo.vn ≤ c.vn ∧ c.vn + 1 ≤ hi.vn := by
  simp [ValidRef]

/-- **C97** If the six numbers differ, some lines (of at most 210 bytes) are accepted after one of
the texts and not after the other. -/
theorem C97_differ {a a' : Bytes} (hlen : a.length + 300 < 2 ^ 63) (hlen' : a'.length + 300 < 2 ^ 63)
    {r q : ObjectSet F} (h : Obj.parse cfg (a ++ [10]) = .ok r) (h' : Obj.parse cfg (a' ++ [10]) = .ok q)
    (hv : visible r ≠ visible q) :
    ∃ b : Bytes, b.length ≤ 210 ∧ ¬ ((∃ r' : ObjectSet F, Obj.parse cfg (a ++ 10 :: b) = .ok r') ↔
      ∃ q' : ObjectSet F, Obj.parse cfg (a' ++ 10 :: b) = .ok q') := by
  by_contra hno
  have hiff : ∀ b : Bytes, b.length ≤ 210 → ((∃ r' : ObjectSet F, Obj.parse cfg (a ++ 10 :: b) = .ok r') ↔
      ∃ q' : ObjectSet F, Obj.parse cfg (a' ++ 10 :: b) = .ok q') :=
    fun b hb => Classical.byContradiction fun hc => hno ⟨b, hb, hc⟩
  clear hno
  have hl1 : (a ++ [10]).length < 2 ^ 63 := by simp; omega
  have hl2 : (a' ++ [10]).length < 2 ^ 63 := by simp; omega
  have hlb : ∀ b : Bytes, b.length ≤ 210 → (a ++ 10 :: b).length < 2 ^ 63 := by
    intro b hb; simp only [List.length_append, List.length_cons]; omega
  have hlb' : ∀ b : Bytes, b.length ≤ 210 → (a' ++ 10 :: b).length < 2 ^ 63 := by
    intro b hb; simp only [List.length_append, List.length_cons]; omega
  obtain ⟨file, rfl, -, hs⟩ := after_lines hl1 h
  obtain ⟨file', rfl, -, hs'⟩ := after_lines hl2 h'
  have ht : tokens b!"mtllib" = [b!"mtllib"] := by decide
  have hlib : Libs (tokens b!"mtllib") [] [] := by
    rw [ht]; exact .line (names := []) (mid := []) (by simp) (.inr ⟨rfl, rfl⟩) (.done (by simp) (by simp))
  have hbad : ∀ lo hi, BodyErr cfg lo hi (tokens b!"mtllib") .InvalidObjectStatement (unknownText b!"mtllib") [b!"mtllib"] := by
    intro lo hi; rw [ht]; exact .here (.unknown (by decide))
  rcases hs with ⟨e, hs⟩ | ⟨init, name, items, e, hs⟩
  · rcases hs' with ⟨e', hs'⟩ | ⟨init', name', items', e', hs'⟩
    · apply hv
      simp [visible, meaning, e, e', objectsMeaning]
    · obtain ⟨rest, g, hc⟩ := hs' b!"mtllib"
      have := (hiff b!"mtllib" (by decide)).mp
        ⟨_, parse_ok_of (hlb _ (by decide)) (file := ⟨_, []⟩) ⟨_, hs _ _ _ hlib, .done⟩⟩
      rw [parse_err_of (hlb' _ (by decide)) ⟨_, _, g, hc.bodyErr _ _ _ (hbad _ _)⟩] at this
      obtain ⟨_, hx⟩ := this
      cases hx
  · rcases hs' with ⟨e', hs'⟩ | ⟨init', name', items', e', hs'⟩
    · obtain ⟨rest, g, hc⟩ := hs b!"mtllib"
      have := (hiff b!"mtllib" (by decide)).mpr
        ⟨_, parse_ok_of (hlb' _ (by decide)) (file := ⟨_, []⟩) ⟨_, hs' _ _ _ hlib, .done⟩⟩
      rw [parse_err_of (hlb _ (by decide)) ⟨_, _, g, hc.bodyErr _ _ _ (hbad _ _)⟩] at this
      obtain ⟨_, hx⟩ := this
      cases hx
    · have s1 := visible_small (by simp; omega) h e
      have s2 := visible_small (by simp; omega) h' e'
      have key : ∀ x, ValidRef {} ⟨2 ^ 63 - 1, 2 ^ 63 - 1, 2 ^ 63 - 1⟩ x →
          (ValidRef (countsOf (init.flatMap ObjAst.items))
            (more1 (countsOf (init.flatMap ObjAst.items) + countsOf items)) x ↔
          ValidRef (countsOf (init'.flatMap ObjAst.items))
            (more1 (countsOf (init'.flatMap ObjAst.items) + countsOf items')) x) := by
        intro x hx
        obtain ⟨rest, g, hc⟩ := hs (probe x)
        obtain ⟨rest', g', hc'⟩ := hs' (probe x)
        rw [← probe_accepted (F := F) (hlb _ (probe_length hx)) s1 hx g hc,
          ← probe_accepted (F := F) (hlb' _ (probe_length hx)) s2 hx g' hc']
        exact hiff _ (probe_length hx)
      apply hv
      obtain ⟨l, o⟩ := file
      obtain ⟨l', o'⟩ := file'
      simp only at e e'
      subst e
      subst e'
      rw [visible_snoc, visible_snoc]
      generalize countsOf (init.flatMap ObjAst.items) = lo1 at *
      generalize countsOf (init'.flatMap ObjAst.items) = lo2 at *
      generalize countsOf items = n1 at *
      generalize countsOf items' = n2 at *
      simp only [more1, counts_add, Small] at s1 s2 key
      have key' : ∀ c : Counts, c.v + 1 < 2 ^ 63 → c.vt + 1 < 2 ^ 63 → c.vn + 1 < 2 ^ 63 → _ :=
        fun c h1 h2 h3 => key ⟨c.v + 1, some (c.vt + 1), some (c.vn + 1)⟩
          (valid_counts.mpr (by simp only [Nat.zero_le, true_and]; omega))
      simp only [valid_counts] at key'
      have k1 := key' lo1 (by omega) (by omega) (by omega)
      have k2 := key' lo2 (by omega) (by omega) (by omega)
      have k3 := key' (lo1 + n1) (by simp only [counts_add]; omega) (by simp only [counts_add]; omega)
        (by simp only [counts_add]; omega)
      have k4 := key' (lo2 + n2) (by simp only [counts_add]; omega) (by simp only [counts_add]; omega)
        (by simp only [counts_add]; omega)
      simp only [counts_add] at k3 k4
      obtain ⟨a1, a2, a3⟩ := lo1
      obtain ⟨b1, b2, b3⟩ := lo2
      obtain ⟨c1, c2, c3⟩ := n1
      obtain ⟨d1, d2, d3⟩ := n2
      simp only at *
      simp only [Option.some.injEq, Prod.mk.injEq, Counts.mk.injEq]
      omega

/-- An object with one vertex, written in two ways. -/
def plainVertex : ObjectSet Bytes :=
  ⟨[], [⟨[], [⟨b!"0", b!"0", b!"0", b!"1"⟩], [], [], [⟨b!"default"⟩], [⟨0⟩], [.Point (.V 0)], [⟨0, [0], 0⟩], [⟨none, [0]⟩]⟩]⟩

def otherVertex : ObjectSet Bytes :=
  ⟨[b!"m"], [⟨b!"x", [⟨b!"5", b!"6", b!"7", b!"1"⟩], [], [], [⟨b!"a"⟩], [], [], [], [⟨some b!"q", []⟩]⟩]⟩

theorem plainVertex_parses : Obj.parse debug (b!"v 0 0 0\np 1" ++ [10]) = .ok plainVertex := by decide +kernel

theorem otherVertex_parses :
    Obj.parse debug (b!"mtllib m\n\no x # name\ng a\nv 5 6 7\nusemtl q" ++ [10]) = .ok otherVertex := by decide +kernel

theorem plainVertex_more : Obj.parse debug (b!"v 0 0 0\np 1" ++ 10 :: b!"p 1") = .ok (⟨[], [⟨[], [⟨b!"0", b!"0", b!"0", b!"1"⟩],
    [], [], [⟨b!"default"⟩], [⟨0⟩], [.Point (.V 0), .Point (.V 0)], [⟨0, [0], 0⟩, ⟨1, [0], 0⟩], [⟨none, [0, 1]⟩]⟩]⟩ :
      ObjectSet Bytes) := by decide +kernel

/-- The hypotheses of `C97_same` hold for two different texts. Lines that go on with a point are
accepted after both. -/
example : visible plainVertex = visible otherVertex ∧ visible plainVertex = some ({}, ⟨1, 0, 0⟩) ∧
    ∃ r' q', Obj.parse debug (b!"v 0 0 0\np 1" ++ 10 :: b!"p 1") = .ok r' ∧
      Obj.parse debug (b!"mtllib m\n\no x # name\ng a\nv 5 6 7\nusemtl q" ++ 10 :: b!"p 1") = .ok q' ∧
      SameAdded plainVertex r' otherVertex q' := by
  refine ⟨by decide, by decide, ?_⟩
  rcases C97_same (F := Bytes) (b := b!"p 1") (by decide) (by decide) plainVertex_parses otherVertex_parses (by decide) with
    h | ⟨n, k, m, h, -⟩ | ⟨x, h, -⟩
  · exact h
  · rw [plainVertex_more] at h; cases h
  · rw [plainVertex_more] at h; cases h

/-- An index that is too large is reported on the third line of one text and on the seventh of the other. -/
example : (Obj.parse debug (b!"v 0 0 0\np 1" ++ 10 :: b!"p 2") : Out ErrorKind (ObjectSet Bytes)) =
      .err ⟨3, .VTNIndexOutOfRange, rangeText 0 1 1⟩ ∧
    (Obj.parse debug (b!"mtllib m\n\no x # name\ng a\nv 5 6 7\nusemtl q" ++ 10 :: b!"p 2") : Out ErrorKind (ObjectSet Bytes)) =
      .err ⟨7, .VTNIndexOutOfRange, rangeText 0 1 1⟩ := by decide +kernel

/-- A text with two vertices is told apart from a text with one. -/
example : ∃ b : Bytes, b.length ≤ 210 ∧
    ¬ ((∃ r' : ObjectSet Bytes, Obj.parse debug (b!"v 0 0 0\np 1" ++ 10 :: b) = .ok r') ↔
      ∃ q' : ObjectSet Bytes, Obj.parse debug (b!"v 0 0 0\nv 1 1 1\np 1" ++ 10 :: b) = .ok q') :=
  C97_differ (F := Bytes) (by decide) (by decide) plainVertex_parses
    (q := ⟨[], [⟨[], [⟨b!"0", b!"0", b!"0", b!"1"⟩, ⟨b!"1", b!"1", b!"1", b!"1"⟩], [], [], [⟨b!"default"⟩], [⟨0⟩],
      [.Point (.V 0)], [⟨0, [0], 0⟩], [⟨none, [0]⟩]⟩]⟩) (by decide +kernel) (by decide)

end Verif.Props
