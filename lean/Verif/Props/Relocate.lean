import Verif.Props.RoundTrip
import Verif.Props.Tables
import Verif.Proofs.Swap

/-!
# Objects can be moved to another file

References count through the whole file. `shift c` adds to every reference of a statement the
number of things defined in front of it.
-/

namespace Verif.Spec.Obj

/-- The reference in a file with `c` more vertices, texture vertices, normals in front. -/
def Ref.shift (c : Counts) (r : Ref) : Ref := ⟨r.v + c.v, r.vt.map (· + c.vt), r.vn.map (· + c.vn)⟩

def Item.shift (c : Counts) : Item → Item
  | .p is => .p (is.map (· + c.v))
  | .l refs => .l (refs.map (Ref.shift c))
  | .f refs => .f (refs.map (Ref.shift c))
  | it => it

def ObjAst.shift (c : Counts) (o : ObjAst) : ObjAst := ⟨o.name, o.items.map (Item.shift c)⟩

/-- How many things the objects define. -/
def countsAll (os : List ObjAst) : Counts := countsOf (os.flatMap ObjAst.items)

/-- One file after the other: the libraries of both, then the objects of the first, then those of
the second with their references raised. -/
def FileAst.join (a b : FileAst) : FileAst :=
  ⟨a.libs ++ b.libs, a.objects ++ b.objects.map (ObjAst.shift (countsAll a.objects))⟩

end Verif.Spec.Obj

namespace Verif.Props

open Verif Verif.Spec Verif.Spec.Obj Verif.Obj

variable {F : Type} [FloatSem F] {cfg : Cfg}

theorem resolve_shift (lo c : Counts) (r : Ref) : (r.shift c).resolve (lo + c) = r.resolve lo := by
  obtain ⟨v, vt, vn⟩ := r
  cases vt <;> cases vn <;> simp only [Ref.shift, Ref.resolve, counts_add, Option.map_none, Option.map_some] <;>
    congr 1 <;> omega

theorem elements_shift (lo c : Counts) (it : Item) : (it.shift c).elements (lo + c) = it.elements lo := by
  cases it with
  | p is =>
    simp only [Item.shift, Item.elements, List.map_map]
    refine List.map_congr_left fun k _ => ?_
    simp only [Function.comp, counts_add]
    congr 2; omega
  | l refs =>
    simp only [Item.shift, Item.elements, List.map_map]
    congr 1; exact List.map_congr_left fun r _ => resolve_shift lo c r
  | f refs =>
    simp only [Item.shift, Item.elements, List.map_map]
    congr 1; exact List.map_congr_left fun r _ => resolve_shift lo c r
  | _ => rfl

theorem step_shift (lo c : Counts) (a : Acc F) (it : Item) : a.step (lo + c) (it.shift c) = a.step lo it := by
  have h := elements_shift lo c it
  cases it with
  | p is => simp only [Acc.step, Item.shift] at h ⊢; rw [h]
  | l is => simp only [Acc.step, Item.shift] at h ⊢; rw [h]
  | f is => simp only [Acc.step, Item.shift] at h ⊢; rw [h]
  | _ => rfl

theorem objMeaning_shift (lo c : Counts) (o : ObjAst) :
    (objMeaning (lo + c) (o.shift c) : Object F) = objMeaning lo o := by
  have key : ∀ (items : List Item) (a : Acc F),
      (items.map (Item.shift c)).foldl (Acc.step (lo + c)) a = items.foldl (Acc.step lo) a := by
    intro items
    induction items with
    | nil => intro a; rfl
    | cons it items ih => intro a; simp only [List.map_cons, List.foldl_cons, step_shift, ih]
  simp only [objMeaning, ObjAst.shift, key]

theorem counts_shift (c : Counts) (it : Item) : (it.shift c).counts = it.counts := by cases it <;> rfl

theorem countsOf_shift (c : Counts) (items : List Item) : countsOf (items.map (Item.shift c)) = countsOf items := by
  simp only [countsOf, List.foldl_map, counts_shift]

theorem countsAll_cons (o : ObjAst) (os : List ObjAst) : countsAll (o :: os) = countsOf o.items + countsAll os := by
  simp only [countsAll, List.flatMap_cons, countsOf_append]

theorem add_counts_zero (c : Counts) : c + {} = c := rfl

theorem objectsMeaning_shift (lo c : Counts) (os : List ObjAst) :
    (objectsMeaning (lo + c) (os.map (ObjAst.shift c)) : List (Object F)) = objectsMeaning lo os := by
  induction os generalizing lo with
  | nil => rfl
  | cons o os ih =>
    simp only [List.map_cons, objectsMeaning, objMeaning_shift]
    rw [show (o.shift c).items = o.items.map (Item.shift c) from rfl, countsOf_shift, counts_swap, ih]

theorem validRef_shift {lo hi c : Counts} {r : Ref} : ValidRef (lo + c) (hi + c) (r.shift c) ↔ ValidRef lo hi r := by
  obtain ⟨v, vt, vn⟩ := r
  cases vt <;> cases vn <;>
    simp [ValidRef, Ref.shift, counts_add]

theorem uniform_shift {c : Counts} {refs : List Ref} : Uniform (refs.map (Ref.shift c)) ↔ Uniform refs := by
  have h : ∀ r : Ref, (r.shift c).form = r.form := by intro r; simp [Ref.form, Ref.shift]
  simp only [Uniform, List.forall_mem_map, h]

theorem validItem_shift {lo hi c : Counts} {it : Item} :
    ValidItem (lo + c) (hi + c) (it.shift c) ↔ ValidItem lo hi it := by
  cases it with
  | p is => simp [ValidItem, Item.shift, counts_add]
  | l refs => simp only [ValidItem, Item.shift, List.length_map, uniform_shift, List.forall_mem_map, validRef_shift]
  | f refs => simp only [ValidItem, Item.shift, List.length_map, uniform_shift, List.forall_mem_map, validRef_shift]
  | _ => exact Iff.rfl

theorem validItems_shift {lo hi c : Counts} {items : List Item} :
    ValidItems (lo + c) (hi + c) (items.map (Item.shift c)) ↔ ValidItems lo hi items := by
  induction items generalizing hi with
  | nil => exact Iff.rfl
  | cons it items ih =>
    simp only [List.map_cons, ValidItems, validItem_shift, counts_shift]
    rw [counts_swap, ih]

theorem bare_shift {c : Counts} {items : List Item} : Bare (items.map (Item.shift c)) ↔ Bare items := by
  have h1 : ∀ it : Item, (it.shift c).isElement = it.isElement := by intro it; cases it <;> rfl
  have h2 : ∀ it : Item, (it.shift c).isUsemtl = it.isUsemtl := by intro it; cases it <;> rfl
  simp only [Bare, List.forall_mem_map, h1, h2]

theorem validObjects_shift {lo c : Counts} {os : List ObjAst} :
    ValidObjects (lo + c) (os.map (ObjAst.shift c)) ↔ ValidObjects lo os := by
  induction os generalizing lo with
  | nil => exact Iff.rfl
  | cons o os ih =>
    simp only [List.map_cons, ValidObjects]
    rw [show (o.shift c).items = o.items.map (Item.shift c) from rfl, countsOf_shift, counts_swap, ih,
      validItems_shift, bare_shift]
    rfl

theorem validObjects_append {lo : Counts} {a b : List ObjAst} (ha : ValidObjects lo a)
    (hb : ValidObjects (lo + countsAll a) b) : ValidObjects lo (a ++ b) := by
  induction a generalizing lo with
  | nil => exact hb
  | cons o a ih =>
    obtain ⟨h1, h2, h3, h4⟩ := ha
    exact ⟨h1, h2, h3, ih h4 (by rw [countsAll_cons, ← counts_add_assoc] at hb; exact hb)⟩


/-- A file in which every object has a name. -/
def AllNamed (f : FileAst) : Prop := ∀ o ∈ f.objects, o.name ≠ []

theorem validObjects_of_named {f : FileAst} (h : ValidFile f) (hn : AllNamed f) : ValidObjects {} f.objects := by
  obtain ⟨libs, objects⟩ := f
  cases objects with
  | nil => trivial
  | cons o os =>
    obtain ⟨-, h1, h2, h3, h4⟩ := h
    exact ⟨h1.resolve_left (hn o (by simp)), h2, h3, by rw [counts_zero_add]; exact h4⟩

theorem validFile_join {a b : FileAst} (ha : ValidFile a) (hb : ValidFile b) (hn : AllNamed b) : ValidFile (a.join b) := by
  have hv := validObjects_of_named hb hn
  have hv' := (validObjects_shift (c := countsAll a.objects)).2 hv
  refine ⟨fun n h => ?_, ?_⟩
  · rcases List.mem_append.mp h with h | h
    · exact ha.1 n h
    · exact hb.1 n h
  · obtain ⟨libs, objects⟩ := a
    cases objects with
    | nil =>
      have e : (FileAst.join ⟨libs, []⟩ b).objects = b.objects.map (ObjAst.shift {}) := rfl
      rw [e]
      cases hbo : b.objects with
      | nil => trivial
      | cons o os =>
        rw [hbo] at hv'
        obtain ⟨h1, h2, h3, h4⟩ := hv'
        refine ⟨.inr h1, h2, h3, ?_⟩
        have := h4
        rw [show countsAll (FileAst.mk libs []).objects = {} from rfl, counts_zero_add, counts_zero_add] at this
        exact this
    | cons o os =>
      obtain ⟨-, h1, h2, h3, h4⟩ := ha
      refine ⟨h1, h2, h3, validObjects_append h4 ?_⟩
      rw [counts_zero_add] at hv'
      rw [← countsAll_cons]
      exact hv'

theorem meaning_join (a b : FileAst) : (meaning (a.join b) : ObjectSet F) =
    ⟨(meaning a : ObjectSet F).material_libraries ++ (meaning b : ObjectSet F).material_libraries,
     (meaning a : ObjectSet F).objects ++ (meaning b : ObjectSet F).objects⟩ := by
  simp only [meaning, FileAst.join, objectsMeaning_append]
  have := objectsMeaning_shift (F := F) {} (countsAll a.objects) b.objects
  rw [show countsOf (a.objects.flatMap ObjAst.items) = countsAll a.objects from rfl, this]

section
variable {a b text input input' : Bytes}

/-- **C75.** Two accepted files, the second without an unnamed object, can be joined: the file made
of the libraries of both, the objects of the first and the objects of the second with their references
raised by what the first defines, is accepted and has the objects of both. -/
theorem C75_join (ha : a.length < 2 ^ 63) (hb : b.length < 2 ^ 63) {fa fb : FileAst}
    (hfa : FileOk cfg (tokens a) fa) (hfb : FileOk cfg (tokens b) fb) (hn : AllNamed fb) {ra rb : ObjectSet F}
    (hra : Obj.parse cfg a = .ok ra) (hrb : Obj.parse cfg b = .ok rb) (hlen : (fa.join fb).text.length < 2 ^ 63) :
    Obj.parse cfg (fa.join fb).text =
      .ok ⟨ra.material_libraries ++ rb.material_libraries, ra.objects ++ rb.objects⟩ := by
  rw [C28_write_read (validFile_join (C28_read_valid hfa) (C28_read_valid hfb) hn) hlen, meaning_join]
  rw [parse_ok_of ha hfa, Out.ok.injEq] at hra
  rw [parse_ok_of hb hfb, Out.ok.injEq] at hrb
  rw [hra, hrb]

/-- **C75.** An object depends on nothing but its own statements: if an object of one accepted file
and an object of another have the same statements once references are counted from the start of the
object, the two parsed objects are equal. -/
theorem C75_same (hlen : input.length < 2 ^ 63) (hlen' : input'.length < 2 ^ 63) {file file' : FileAst}
    (hf : FileOk cfg (tokens input) file) (hf' : FileOk cfg (tokens input') file') {r r' : ObjectSet F}
    (h : Obj.parse cfg input = .ok r) (h' : Obj.parse cfg input' = .ok r') {j j' : Nat} {o o' : ObjAst}
    (ho : file.objects[j]? = some o) (ho' : file'.objects[j']? = some o') {own : ObjAst}
    (e : o = own.shift (countsAll (file.objects.take j)))
    (e' : o' = own.shift (countsAll (file'.objects.take j'))) :
    ∃ x : Object F, r.objects[j]? = some x ∧ r'.objects[j']? = some x := by
  have h1 := (parsed_object hlen hf h ho).1
  have h2 := (parsed_object hlen' hf' h' ho').1
  subst e e'
  have k := fun c => objMeaning_shift (F := F) {} c own
  simp only [counts_zero_add] at k
  rw [show countsBefore file.objects j = countsAll (file.objects.take j) from rfl, k] at h1
  rw [show countsBefore file'.objects j' = countsAll (file'.objects.take j') from rfl, k] at h2
  exact ⟨_, h1, h2⟩

/-- The statements of a valid object, references counted from its start. -/
theorem unshift_items {lo hi : Counts} {items : List Item} (h : ValidItems lo (hi + lo) items) :
    ∃ own : List Item, items = own.map (Item.shift lo) := by
  have href : ∀ {hi : Counts} (r : Ref), ValidRef lo hi r → ∃ s : Ref, r = s.shift lo := by
    rintro hi ⟨v, vt, vn⟩ ⟨h1, h2, h3⟩
    refine ⟨⟨v - lo.v, vt.map (· - lo.vt), vn.map (· - lo.vn)⟩, ?_⟩
    dsimp only at h1 h2 h3
    have : v - lo.v + lo.v = v := by omega
    cases vt <;> cases vn <;> simp_all [Ref.shift] <;> omega
  have hrefs : ∀ {hi : Counts} (refs : List Ref), (∀ r ∈ refs, ValidRef lo hi r) →
      ∃ s : List Ref, refs = s.map (Ref.shift lo) := by
    intro hi refs
    induction refs with
    | nil => exact fun _ => ⟨[], rfl⟩
    | cons r refs ih =>
      intro h
      obtain ⟨s, rfl⟩ := href r (h r (by simp))
      obtain ⟨ss, rfl⟩ := ih fun r hr => h r (by simp [hr])
      exact ⟨s :: ss, rfl⟩
  induction items generalizing hi with
  | nil => exact ⟨[], rfl⟩
  | cons it items ih =>
    obtain ⟨h1, h2⟩ := h
    rw [counts_swap] at h2
    obtain ⟨own, rfl⟩ := ih h2
    have : ∃ x : Item, it = x.shift lo := by
      cases it with
      | p is =>
        refine ⟨.p (is.map (· - lo.v)), ?_⟩
        simp only [Item.shift, List.map_map, Item.p.injEq]
        refine (List.map_id' is).symm.trans (List.map_congr_left fun k hk => ?_)
        have := (h1.2 k hk).1
        simp only [Function.comp]
        omega
      | l refs => obtain ⟨s, rfl⟩ := hrefs refs h1.2.2; exact ⟨.l s, rfl⟩
      | f refs => obtain ⟨s, rfl⟩ := hrefs refs h1.2.2; exact ⟨.f s, rfl⟩
      | v x y z w => exact ⟨.v x y z w, rfl⟩
      | vt x y z => exact ⟨.vt x y z, rfl⟩
      | vn x y z => exact ⟨.vn x y z, rfl⟩
      | g n => exact ⟨.g n, rfl⟩
      | s n => exact ⟨.s n, rfl⟩
      | usemtl n => exact ⟨.usemtl n, rfl⟩
    obtain ⟨x, rfl⟩ := this
    exact ⟨x :: own, rfl⟩

theorem validObjects_mem {lo : Counts} {os : List ObjAst} (h : ValidObjects lo os) {j : Nat} {o : ObjAst}
    (ho : os[j]? = some o) : IsToken o.name ∧ ¬ Bare o.items ∧
      ValidItems (lo + countsAll (os.take j)) (lo + countsAll (os.take j)) o.items := by
  induction os generalizing lo j with
  | nil => simp at ho
  | cons x os ih =>
    obtain ⟨h1, h2, h3, h4⟩ := h
    cases j with
    | zero =>
      simp only [List.getElem?_cons_zero, Option.some.injEq] at ho
      subst ho
      exact ⟨h1, h3, h2⟩
    | succ j =>
      have := ih h4 (j := j) (by simpa using ho)
      rwa [List.take_succ_cons, countsAll_cons, ← counts_add_assoc]

/-- **C75.** Every object of an accepted file can be taken out: its statements, with references
counted from its start, make up a file of their own that is parsed to just this object. -/
theorem C75_extract (hlen : input.length < 2 ^ 63) {file : FileAst}
    (hf : FileOk cfg (tokens input) file) {r : ObjectSet F} (h : Obj.parse cfg input = .ok r)
    {j : Nat} {o : ObjAst} (ho : file.objects[j]? = some o) :
    ∃ own : ObjAst, o = own.shift (countsAll (file.objects.take j)) ∧
      ∃ x : Object F, r.objects[j]? = some x ∧
        ((FileAst.mk [] [own]).text.length < 2 ^ 63 →
          Obj.parse cfg (FileAst.mk [] [own]).text = .ok ⟨[], [x]⟩) := by
  have hv := C28_read_valid hf
  have key : (o.name = [] ∨ IsToken o.name) ∧ ¬ Bare o.items ∧
      ValidItems (countsAll (file.objects.take j)) (countsAll (file.objects.take j)) o.items := by
    obtain ⟨libs, objects⟩ := file
    cases objects with
    | nil => simp at ho
    | cons x os =>
      obtain ⟨-, h1, h2, h3, h4⟩ := hv
      cases j with
      | zero =>
        simp only [List.getElem?_cons_zero, Option.some.injEq] at ho
        subst ho
        exact ⟨h1, h3, h2⟩
      | succ j =>
        obtain ⟨k1, k2, k3⟩ := validObjects_mem h4 (j := j) (by simpa using ho)
        refine ⟨.inr k1, k2, ?_⟩
        show ValidItems (countsAll (x :: os.take j)) (countsAll (x :: os.take j)) _
        rwa [countsAll_cons]
  obtain ⟨k1, k2, k3⟩ := key
  obtain ⟨own, e⟩ := unshift_items (hi := {}) (by rw [counts_zero_add]; exact k3)
  obtain ⟨name, items⟩ := o
  dsimp only at e k1 k2 k3
  subst e
  refine ⟨⟨name, own⟩, rfl, objMeaning {} ⟨name, own⟩, ?_, fun hl => ?_⟩
  · have := (parsed_object hlen hf h ho).1
    rw [this]
    have k := objMeaning_shift (F := F) {} (countsAll (file.objects.take j)) ⟨name, own⟩
    rw [counts_zero_add] at k
    exact congrArg some k
  · refine C28_write_read ?_ hl
    refine ⟨by simp, k1, ?_, fun hb => k2 (bare_shift.2 hb), trivial⟩
    refine (validItems_shift (c := countsAll (file.objects.take j))).1 ?_
    rw [counts_zero_add]; exact k3

/-! A concrete case: a file with two objects, the second of which is alone in another file. -/

/-- An object whose references are counted from its own start. -/
def moved : ObjAst := ⟨b!"b", [.v b!"5" b!"6" b!"7" none, .vt b!"1" none none, .g [b!"x"], .s 3,
  .l [⟨1, some 1, none⟩, ⟨1, some 1, none⟩], .p [1]]⟩

def first : FileAst := ⟨[b!"k.mtl"], [⟨b!"a", [.v b!"0" b!"0" b!"0" none, .v b!"1" b!"0" b!"0" none,
  .vt b!"0" none none, .p [1, 2]]⟩]⟩

def second : FileAst := ⟨[b!"l.mtl"], [moved]⟩

theorem first_valid : ValidFile first := by
  refine ⟨by decide, .inr ?_, ?_, by decide, trivial⟩
  · decide
  · simp only [ValidItems, ValidItem]; decide +kernel

theorem second_valid : ValidFile second := by
  refine ⟨by decide, .inr ?_, ?_, by decide, trivial⟩
  · decide
  · simp only [moved, ValidItems, ValidItem, Uniform, ValidRef]; decide +kernel

example : (first.join second).text = b!"mtllib k.mtl l.mtl\no a\nv 0 0 0\nv 1 0 0\nvt 0\np 1 2\n" ++
    b!"o b\nv 5 6 7\nvt 1\ng x\ns 3\nl 3/2 3/2\np 3\n" := by decide +kernel

/-- The hypotheses of `C75_join` hold of the two files. -/
example : ∃ ra rb : ObjectSet Bytes, Obj.parse debug first.text = .ok ra ∧ Obj.parse debug second.text = .ok rb ∧
    Obj.parse debug (first.join second).text =
      .ok ⟨ra.material_libraries ++ rb.material_libraries, ra.objects ++ rb.objects⟩ :=
  have h1 : first.text.length < 2 ^ 63 := by decide +kernel
  have h2 : second.text.length < 2 ^ 63 := by decide +kernel
  have k1 := C28_write_read (F := Bytes) (cfg := debug) first_valid h1
  have k2 := C28_write_read (F := Bytes) (cfg := debug) second_valid h2
  ⟨_, _, k1, k2, C75_join h1 h2 (file_text debug first_valid h1) (file_text debug second_valid h2)
    (by simp [AllNamed, second, moved]) k1 k2 (by decide +kernel)⟩

/-- The second object of the joined file and the only object of the second file are the same. -/
example : ∃ x : Object Bytes, (meaning (first.join second) : ObjectSet Bytes).objects[1]? = some x ∧
    (meaning second : ObjectSet Bytes).objects[0]? = some x :=
  have h1 : (first.join second).text.length < 2 ^ 63 := by decide +kernel
  have h2 : second.text.length < 2 ^ 63 := by decide +kernel
  have v := validFile_join first_valid second_valid (by simp [AllNamed, second, moved])
  C75_same (cfg := debug) h1 h2 (file_text debug v h1) (file_text debug second_valid h2)
    (C28_write_read v h1) (C28_write_read second_valid h2) (j := 1) (j' := 0) (own := moved)
    rfl rfl rfl (by decide +kernel)

end

end Verif.Props
