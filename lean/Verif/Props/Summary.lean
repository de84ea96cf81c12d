import Verif.Props.Display
import Verif.Props.Exact
import Verif.Proofs.ObjUnique
import Verif.Proofs.Floats

/-!
# Property C78: what the display of an object set shows
-/

namespace Verif.Props

open Verif Verif.Obj Verif.Spec Verif.Spec.Obj

/-- Two lists of the same length with the same first and last entries. -/
def SameEnds {α : Type} (a b : List α) : Prop :=
  a.length = b.length ∧ a.head? = b.head? ∧ a.getLast? = b.getLast?

/-- Objects with the same name whose tables have the same lengths, first and last entries. The shape
entries, the geometries and everything between the first and the last entry may differ. -/
structure SameSummary {F : Type} (o o' : Object F) : Prop where
  name : o.name = o'.name
  vertices : SameEnds o.vertex_set o'.vertex_set
  textures : SameEnds o.texture_vertex_set o'.texture_vertex_set
  normals : SameEnds o.normal_vertex_set o'.normal_vertex_set
  groups : SameEnds o.group_set o'.group_set
  smoothing : SameEnds o.smoothing_group_set o'.smoothing_group_set
  elements : SameEnds o.element_set o'.element_set

/-! ## Lines -/

/-- Lines of text. -/
def joinLines (ls : List Bytes) : Bytes := ls.flatMap (· ++ [10])

theorem joinLines_append (a b : List Bytes) : joinLines (a ++ b) = joinLines a ++ joinLines b := by
  simp [joinLines]

theorem upto_inj {c : UInt8} {a b x y : Bytes} (ha : c ∉ a) (hb : c ∉ b) (h : a ++ c :: x = b ++ c :: y) :
    a = b ∧ x = y := by
  induction a generalizing b with
  | nil =>
    cases b with
    | nil => exact ⟨rfl, (List.cons.inj h).2⟩
    | cons d b => exact absurd (List.cons.inj h).1 fun e => hb (e ▸ List.mem_cons_self)
  | cons d a ih =>
    cases b with
    | nil => exact absurd (List.cons.inj h).1 fun e => ha (e ▸ List.mem_cons_self)
    | cons d' b =>
      obtain ⟨rfl, h2⟩ := List.cons.inj h
      obtain ⟨rfl, rfl⟩ := ih (fun hm => ha (.tail _ hm)) (fun hm => hb (.tail _ hm)) h2
      exact ⟨rfl, rfl⟩

theorem joinLines_inj {a b : List Bytes} (ha : ∀ l ∈ a, (10 : UInt8) ∉ l) (hb : ∀ l ∈ b, (10 : UInt8) ∉ l)
    (h : joinLines a = joinLines b) : a = b := by
  induction a generalizing b with
  | nil =>
    cases b with
    | nil => rfl
    | cons l b => simp [joinLines] at h
  | cons l a ih =>
    cases b with
    | nil => simp [joinLines] at h
    | cons l' b =>
      simp only [joinLines, List.flatMap_cons, List.append_assoc, List.singleton_append] at h
      obtain ⟨rfl, h2⟩ := upto_inj (ha l List.mem_cons_self) (hb l' List.mem_cons_self) h
      rw [ih (fun x hx => ha x (.tail _ hx)) (fun x hx => hb x (.tail _ hx)) h2]

/-! ## The lines of a display -/

/-- The line with the first and the last entry. -/
def dataLine : List Bytes → Bytes
  | [] => b!"        data: []"
  | a :: r => b!"        data: [(" ++ a ++ b!") ... (" ++ (a :: r).getLast (by simp) ++ b!")]"

def setLines (shown : List Bytes) (name : Bytes) : List Bytes :=
  [b!"    " ++ name ++ b!" set:", dataLine shown, b!"        length: " ++ showNat shown.length]

theorem compose_set_eq {T : Type} {f : T → Option Bytes} {g : T → Bytes} {set : List T}
    (h : ∀ x ∈ set, f x = some (g x)) (name : Bytes) :
    compose_set f set name = some (joinLines (setLines (set.map g) name)) := by
  unfold compose_set
  cases set with
  | nil => simp [joinLines, setLines, dataLine]
  | cons a r =>
    have h1 := h a List.mem_cons_self
    have h2 := h _ (List.getLast_mem (by simp : a :: r ≠ []))
    have e : ∀ p, (g a :: List.map g r).getLast p = g ((a :: r).getLast (by simp)) := by
      intro p
      exact List.getLast_map (f := g) (l := a :: r) p
    simp only [h1, h2, setLines, dataLine, List.map_cons, e]
    simp only [joinLines, List.flatMap_cons, List.flatMap_nil, List.append_assoc, Option.pure_def, Option.bind_eq_bind, Option.bind_some]
    simp

section
variable {F : Type} [FloatShow F]

/-- What is displayed of an element. -/
def elementText (cfg : Cfg) (e : Element) : Bytes := (e.display cfg).getD []

/-- A name that is a line feed takes two lines. -/
def nameLines (name : Bytes) : List Bytes :=
  if name = [10] then [b!"    name: ", b!""] else [b!"    name: " ++ name]

def setsLines (cfg : Cfg) (o : Object F) : List Bytes :=
  setLines (o.vertex_set.map Vertex.display) b!"vertex" ++
  (setLines (o.texture_vertex_set.map TextureVertex.display) b!"texture vertex" ++
  (setLines (o.normal_vertex_set.map NormalVertex.display) b!"normal vertex" ++
  (setLines (o.group_set.map Group.display) b!"group" ++
  (setLines (o.smoothing_group_set.map SmoothingGroup.display) b!"smoothing group" ++
  (setLines (o.element_set.map (elementText cfg)) b!"element" ++
  [b!"}}", b!""])))))

def objectLines (cfg : Cfg) (o : Object F) : List Bytes :=
  b!"Object {" :: (nameLines o.name ++ setsLines cfg o)

theorem compose_eq {cfg : Cfg} {o : Object F} (h : ∀ e ∈ o.element_set, (e.display cfg).isSome = true) :
    ∃ t, compose cfg o = some t ∧ t ++ b!"\n" = joinLines (objectLines cfg o) := by
  have he : ∀ e ∈ o.element_set, e.display cfg = some (elementText cfg e) := by
    intro e hm
    obtain ⟨t, ht⟩ := Option.isSome_iff_exists.mp (h e hm)
    rw [elementText, ht]; rfl
  unfold compose
  have k : ∀ {T : Type} (f : T → Bytes) (set : List T) (name : Bytes),
      compose_set (some ∘ f) set name = some (joinLines (setLines (set.map f) name)) :=
    fun f set name => compose_set_eq (fun _ _ => rfl) name
  rw [k, k, k, k, k, compose_set_eq he]
  refine ⟨_, rfl, ?_⟩
  have hn : joinLines (nameLines o.name) = b!"    name: " ++ o.name ++ [10] := by
    unfold nameLines
    split
    · next hn => rw [hn]; rfl
    · simp [joinLines]
  have e : joinLines (objectLines cfg o) = b!"Object {\n" ++ (joinLines (nameLines o.name) ++ joinLines (setsLines cfg o)) := by
    simp [objectLines, joinLines]
  rw [e, hn]
  simp only [setsLines, joinLines_append]
  simp [joinLines]

/-- The lines of a displayed object set. -/
def allLines (cfg : Cfg) (os : List (Object F)) : List Bytes :=
  b!"ObjectSet {" :: (os.flatMap (objectLines cfg) ++ [b!"}"])

theorem display_eq {cfg : Cfg} {r : ObjectSet F} (h : ∀ o ∈ r.objects, ∀ e ∈ o.element_set, (e.display cfg).isSome = true) :
    r.display cfg = some (joinLines (allLines cfg r.objects)) := by
  have key : ∀ (os : List (Object F)) (s : Bytes), (∀ o ∈ os, ∀ e ∈ o.element_set, (e.display cfg).isSome = true) →
      compose_all cfg os s = some (s ++ joinLines (os.flatMap (objectLines cfg))) := by
    intro os
    induction os with
    | nil => intro s _; simp [compose_all, joinLines]
    | cons o os ih =>
      intro s hs
      obtain ⟨t, ht, e⟩ := compose_eq (hs o List.mem_cons_self)
      rw [compose_all, ht]
      show compose_all cfg os (s ++ t ++ b!"\n") = _
      rw [ih _ fun o ho => hs o (.tail _ ho), List.flatMap_cons, joinLines_append, ← e]
      simp
  unfold ObjectSet.display
  rw [key _ _ h]
  simp [allLines, joinLines]

/-! ## The lines determine the summary -/

omit [FloatShow F] in
theorem sameEnds_map {α : Type} {g : α → Bytes} {a b : List α} (hg : ∀ x ∈ a, ∀ y ∈ b, g x = g y → x = y)
    (h : SameEnds (a.map g) (b.map g)) : SameEnds a b := by
  obtain ⟨h1, h2, h3⟩ := h
  rw [List.length_map, List.length_map] at h1
  rw [List.head?_map, List.head?_map] at h2
  rw [List.getLast?_map, List.getLast?_map] at h3
  refine ⟨h1, ?_, ?_⟩
  · cases a with
    | nil => cases b with
      | nil => rfl
      | cons _ _ => simp at h1
    | cons x a => cases b with
      | nil => simp at h1
      | cons y b =>
        simp only [List.head?_cons, Option.map_some, Option.some.injEq] at h2
        rw [List.head?_cons, List.head?_cons, hg x List.mem_cons_self y List.mem_cons_self h2]
  · rcases List.eq_nil_or_concat a with rfl | ⟨a, x, rfl⟩
    · rcases List.eq_nil_or_concat b with rfl | ⟨b, y, rfl⟩
      · rfl
      · simp at h1
    · rcases List.eq_nil_or_concat b with rfl | ⟨b, y, rfl⟩
      · simp at h1
      · simp only [List.concat_eq_append, List.getLast?_concat, Option.map_some, Option.some.injEq] at h3 ⊢
        exact hg x (by simp) y (by simp) h3

theorem dataLine_inj {a b : List Bytes} (h : ((∀ t ∈ a, (32 : UInt8) ∉ t) ∧ ∀ t ∈ b, (32 : UInt8) ∉ t) ∨
    ((∀ t ∈ a, (41 : UInt8) ∉ t) ∧ ∀ t ∈ b, (41 : UInt8) ∉ t)) (he : dataLine a = dataLine b) :
    a.head? = b.head? ∧ a.getLast? = b.getLast? := by
  cases a with
  | nil => cases b with
    | nil => exact ⟨rfl, rfl⟩
    | cons y b => simp [dataLine] at he
  | cons x a => cases b with
    | nil => simp [dataLine] at he
    | cons y b =>
      simp only [dataLine, List.append_assoc] at he
      have he := List.append_cancel_left he
      rw [List.head?_cons, List.head?_cons, List.getLast?_eq_some_getLast (by simp),
        List.getLast?_eq_some_getLast (l := y :: b) (by simp)]
      generalize (x :: a).getLast _ = u at he
      generalize (y :: b).getLast _ = w at he
      have key : x = y ∧ u = w := by
        rcases h with ⟨ha, hb⟩ | ⟨ha, hb⟩
        · have he' : (x ++ [41]) ++ 32 :: (b!"... (" ++ (u ++ b!")]")) = (y ++ [41]) ++ 32 :: (b!"... (" ++ (w ++ b!")]")) := by
            simpa using he
          obtain ⟨e1, e2⟩ := upto_inj (by simpa using ha x List.mem_cons_self) (by simpa using hb y List.mem_cons_self) he'
          exact ⟨List.append_cancel_right e1, List.append_cancel_right (List.append_cancel_left e2)⟩
        · obtain ⟨e1, e2⟩ := upto_inj (ha x List.mem_cons_self) (hb y List.mem_cons_self) he
          exact ⟨e1, List.append_cancel_right (List.append_cancel_left (as := b!" ... (") e2)⟩
      exact ⟨by rw [key.1], by rw [key.2]⟩

theorem setLines_inj {α : Type} {g : α → Bytes} {a b : List α} {name : Bytes} {x y : List Bytes}
    (hg : ∀ x ∈ a, ∀ y ∈ b, g x = g y → x = y)
    (h : ((∀ t ∈ a, (32 : UInt8) ∉ g t) ∧ ∀ t ∈ b, (32 : UInt8) ∉ g t) ∨
      ((∀ t ∈ a, (41 : UInt8) ∉ g t) ∧ ∀ t ∈ b, (41 : UInt8) ∉ g t))
    (he : setLines (a.map g) name ++ x = setLines (b.map g) name ++ y) : SameEnds a b ∧ x = y := by
  simp only [setLines, List.cons_append, List.nil_append, List.cons.injEq, true_and] at he
  obtain ⟨h1, h2, h3⟩ := he
  refine ⟨sameEnds_map hg ⟨showNat_injective (by simpa using h2), dataLine_inj ?_ h1⟩, h3⟩
  simpa using h

theorem nameLines_inj {n n' : Bytes} {k k' : Bytes} {x y : List Bytes} (hk : k ≠ []) (hk' : k' ≠ [])
    (h : nameLines n ++ k :: x = nameLines n' ++ k' :: y) : n = n' ∧ k :: x = k' :: y := by
  unfold nameLines at h
  split at h <;> split at h
  · next h1 h2 => exact ⟨h1.trans h2.symm, by simpa using h⟩
  · simp at h; exact absurd h.2.1 hk'
  · simp at h; exact absurd h.2.1 hk
  · simp at h
    exact ⟨h.1, by simp [h.2]⟩

end

section
variable {F : Type} [FloatSem F] [FloatShow F] [LawfulFloat F]

theorem spaced_inj {a b : List Bytes} (ha : ∀ w ∈ a, Word w) (hb : ∀ w ∈ b, Word w) (h : spaced a = spaced b) :
    a = b := by
  rw [← tokens_spaced ha, h, tokens_spaced hb]

theorem mem_spaced {c : UInt8} {ws : List Bytes} (h : c ∈ spaced ws) : c = 32 ∨ ∃ w ∈ ws, c ∈ w := by
  induction ws with
  | nil => simp [spaced, List.intercalate] at h
  | cons w ws ih =>
    cases ws with
    | nil => rw [sp1] at h; exact .inr ⟨w, List.mem_cons_self, h⟩
    | cons w' ws =>
      rw [sp2] at h
      simp only [List.mem_append] at h
      rcases h with (h | h) | h
      · exact .inr ⟨w, List.mem_cons_self, h⟩
      · exact .inl (by simpa using h)
      · rcases ih h with h | ⟨w, hw, h⟩
        · exact .inl h
        · exact .inr ⟨w, .tail _ hw, h⟩

theorem float_noparen {t : Bytes} (h : isFloat t = true) : (41 : UInt8) ∉ t := by
  have hd : ∀ {ds : Bytes}, DigitsStar ds → (41 : UInt8) ∉ ds := fun h hm => absurd (h _ hm) (by decide)
  have hsg : ∀ {sg : Bytes}, Sign sg → (41 : UInt8) ∉ sg := by
    intro sg h
    rcases h with rfl | rfl | rfl <;> decide
  have hc : ∀ {lc w : Bytes}, (∀ l ∈ lc, l ≠ 41 ∧ l - 32 ≠ 41) → AnyCase lc w → (41 : UInt8) ∉ w := by
    intro lc w hl h
    induction h with
    | nil => simp
    | @cons l c lc w h1 _ ih =>
      intro hm
      rcases List.mem_cons.mp hm with rfl | hm
      · have := hl l List.mem_cons_self
        rcases h1 with h1 | h1
        · exact this.1 h1.symm
        · exact this.2 h1.symm
      · exact ih (fun l hm => hl l (.tail _ hm)) hm
  obtain ⟨sg, r, rfl, hs, hr⟩ := isFloat_iff.mp h
  rw [List.mem_append, not_or]
  refine ⟨hsg hs, ?_⟩
  rcases hr with ⟨m, e, rfl, hm, he⟩ | hr | hr | hr
  · rw [List.mem_append, not_or]
    constructor
    · rcases hm with ⟨hm, -⟩ | ⟨i, f, rfl, hi, hf, -⟩
      · exact hd hm
      · simp [hd hi, hd hf]
    · rcases he with rfl | ⟨m, sg, ds, rfl, rfl | rfl, h1, h2, -⟩
      · simp
      · simp [hsg h1, hd h2]
      · simp [hsg h1, hd h2]
  · exact hc (by decide) hr
  · exact hc (by decide) hr
  · exact hc (by decide) hr

/-- Texts of entries with neither a line feed nor a closing parenthesis. -/
def Quiet (t : Bytes) : Prop := (10 : UInt8) ∉ t ∧ (41 : UInt8) ∉ t

theorem quiet_spaced {ws : List Bytes} (h : ∀ w ∈ ws, Quiet w) : Quiet (spaced ws) :=
  ⟨fun hm => by
    rcases mem_spaced hm with h1 | ⟨w, hw, hm⟩
    · exact absurd h1 (by decide)
    · exact (h w hw).1 hm,
   fun hm => by
    rcases mem_spaced hm with h1 | ⟨w, hw, hm⟩
    · exact absurd h1 (by decide)
    · exact (h w hw).2 hm⟩

theorem word_nolf {w : Bytes} (h : Word w) : (10 : UInt8) ∉ w := fun hm => (h.2 _ hm).2.2.2.1 rfl

theorem quiet_show (n : Nat) : Quiet (showNat n) :=
  ⟨fun h => absurd ((showNat_spec n).2.1 _ h) (by decide), fun h => absurd ((showNat_spec n).2.1 _ h) (by decide)⟩

theorem quiet_ref (r : Ref) : Quiet r.text := by
  have h := fun n => (quiet_show n).1
  have h' := fun n => (quiet_show n).2
  unfold Ref.text Quiet
  split <;> simp [h, h']

theorem quiet_float (x : F) : Quiet (FloatShow.display x) :=
  ⟨word_nolf (word_float (LawfulFloat.isFloat_display x)), float_noparen (LawfulFloat.isFloat_display x)⟩

theorem quiet_kw : ∀ k ∈ [b!"v", b!"vt", b!"vn", b!"p", b!"l", b!"f", b!"off"], Quiet k := by
  unfold Quiet; decide

theorem quiet_element (e : Element) : Quiet (spaced (itemOf e).words) := by
  apply quiet_spaced
  have hk := quiet_kw
  cases e <;> simp [itemOf, Item.words, quiet_ref, quiet_show] <;> exact hk _ (by decide)

theorem quiet_v (a : Vertex F) : Quiet a.display := by
  rw [display_v]
  apply quiet_spaced
  simp [vItem, Item.words, quiet_float]
  exact quiet_kw _ (by decide)

theorem quiet_vt (a : TextureVertex F) : Quiet a.display := by
  rw [display_vt]
  apply quiet_spaced
  simp [vtItem, Item.words, quiet_float]
  exact quiet_kw _ (by decide)

theorem quiet_vn (a : NormalVertex F) : Quiet a.display := by
  rw [display_vn]
  apply quiet_spaced
  simp [vnItem, Item.words, quiet_float]
  exact quiet_kw _ (by decide)

theorem quiet_s (g : SmoothingGroup) : Quiet g.display := by
  unfold SmoothingGroup.display
  split
  · exact quiet_kw _ (by decide)
  · exact quiet_show _

/-! ## Different entries have different texts -/

theorem float_inj {x y : F} (h : FloatShow.display x = FloatShow.display y) : x = y := by
  rw [← LawfulFloat.value_display x, h, LawfulFloat.value_display]

theorem float_word (x : F) : Word (FloatShow.display x) := word_float (LawfulFloat.isFloat_display x)

theorem data_kw : Word b!"v" ∧ Word b!"vt" ∧ Word b!"vn" := by unfold Word; decide

theorem v_inj {a b : Vertex F} (h : a.display = b.display) : a = b := by
  rw [display_v, display_v] at h
  have := spaced_inj (by simp [vItem, Item.words, float_word, data_kw]) (by simp [vItem, Item.words, float_word, data_kw]) h
  simp only [vItem, Item.words, Option.toList_some, List.cons_append, List.nil_append, List.cons.injEq, true_and, and_true] at this
  cases a; cases b
  rw [Vertex.mk.injEq]
  exact ⟨float_inj this.1, float_inj this.2.1, float_inj this.2.2.1, float_inj this.2.2.2⟩

theorem vt_inj {a b : TextureVertex F} (h : a.display = b.display) : a = b := by
  rw [display_vt, display_vt] at h
  have := spaced_inj (by simp [vtItem, Item.words, float_word, data_kw]) (by simp [vtItem, Item.words, float_word, data_kw]) h
  simp only [vtItem, Item.words, Option.toList_some, List.cons_append, List.nil_append, List.cons.injEq, true_and, and_true] at this
  cases a; cases b
  rw [TextureVertex.mk.injEq]
  exact ⟨float_inj this.1, float_inj this.2.1, float_inj this.2.2⟩

theorem vn_inj {a b : NormalVertex F} (h : a.display = b.display) : a = b := by
  rw [display_vn, display_vn] at h
  have := spaced_inj (by simp [vnItem, Item.words, float_word, data_kw]) (by simp [vnItem, Item.words, float_word, data_kw]) h
  simp only [vnItem, Item.words, List.cons.injEq, true_and, and_true] at this
  cases a; cases b
  rw [NormalVertex.mk.injEq]
  exact ⟨float_inj this.1, float_inj this.2.1, float_inj this.2.2⟩

theorem s_inj {a b : SmoothingGroup} (h : a.display = b.display) : a = b := by
  by_cases h0 : a.number = 0
  · have h1 := (C42_off a).mpr h0
    rw [h] at h1
    have := (C42_off b).mp h1
    cases a; cases b; simp_all
  · have h1 : b.number ≠ 0 := fun hb => h0 ((C42_off a).mp (h.trans ((C42_off b).mpr hb)))
    unfold SmoothingGroup.display at h
    rw [if_neg h0, if_neg h1] at h
    have := showNat_injective h
    cases a; cases b; simp_all

omit [FloatSem F] [FloatShow F] [LawfulFloat F] in
theorem ref_inj {o o' : Object F} (hs : Small (countsIn o)) (hs' : Small (countsIn o')) {x y : VTNIndex}
    (hx : Exist o x) (hy : Exist o' y) (h : (refOf x).text = (refOf y).text) : x = y := by
  let big : Counts := ⟨2 ^ 63 - 1, 2 ^ 63 - 1, 2 ^ 63 - 1⟩
  have hb : Small big := ⟨by decide, by decide, by decide⟩
  have wide : ∀ {o : Object F} {x : VTNIndex}, Small (countsIn o) → Exist o x → ValidRef {} big (refOf x) := by
    intro o x hs hx
    obtain ⟨h1, h2, h3⟩ := hs
    dsimp only [countsIn] at h1 h2 h3
    cases x <;> simp only [Exist] at hx <;> simp [ValidRef, refOf, big] <;> omega
  have h1 := refTok_text (wide hs hx) hb
  rw [h] at h1
  have e := refTok_unique h1 (refTok_text (wide hs' hy) hb)
  rw [← refOf_resolve x, e, refOf_resolve]

omit [FloatSem F] [FloatShow F] [LawfulFloat F] in
theorem element_inj {o o' : Object F} (hs : Small (countsIn o)) (hs' : Small (countsIn o')) {e e' : Element}
    (he : GoodElement o e) (he' : GoodElement o' e') (h : spaced (itemOf e).words = spaced (itemOf e').words) :
    e = e' := by
  have hw := spaced_inj (itemOf_words e) (itemOf_words e') h
  have key : ∀ x ∈ indices e, ∀ y ∈ indices e', (refOf x).text = (refOf y).text → x = y := fun x hx y hy h =>
    ref_inj hs hs' ((C36_some_iff o x).mp (he.exist x hx)) ((C36_some_iff o' y).mp (he'.exist y hy)) h
  cases e with
  | Point a => cases e' with
    | Point b =>
      obtain ⟨v, rfl⟩ := he.point a rfl
      obtain ⟨w, rfl⟩ := he'.point b rfl
      simp only [itemOf, Item.words, refOf, List.map_cons, List.map_nil, List.cons.injEq, true_and, and_true] at hw
      have := showNat_injective hw
      simp at this
      rw [this]
    | Line c d => simp [itemOf, Item.words] at hw
    | Face c d f => simp [itemOf, Item.words] at hw
  | Line a b => cases e' with
    | Point c => simp [itemOf, Item.words] at hw
    | Line c d =>
      simp only [itemOf, Item.words, List.map_cons, List.map_nil, List.cons.injEq, true_and, and_true] at hw
      rw [key a (by simp [indices]) c (by simp [indices]) hw.1, key b (by simp [indices]) d (by simp [indices]) hw.2]
    | Face c d f => simp [itemOf, Item.words] at hw
  | Face a b b' => cases e' with
    | Point c => simp [itemOf, Item.words] at hw
    | Line c d => simp [itemOf, Item.words] at hw
    | Face c d f =>
      simp only [itemOf, Item.words, List.map_cons, List.map_nil, List.cons.injEq, true_and, and_true] at hw
      rw [key a (by simp [indices]) c (by simp [indices]) hw.1, key b (by simp [indices]) d (by simp [indices]) hw.2.1,
        key b' (by simp [indices]) f (by simp [indices]) hw.2.2]

/-! ## Objects -/

/-- What is needed of an object: it is so for parsed ones. -/
structure Tidy (o : Object F) : Prop where
  small : Small (countsIn o)
  good : ∀ e ∈ o.element_set, GoodElement o e
  groups : ∀ g ∈ o.group_set, (10 : UInt8) ∉ g.name ∧ (32 : UInt8) ∉ g.name
  name : o.name = [10] ∨ (10 : UInt8) ∉ o.name

omit [FloatShow F] [LawfulFloat F] in
theorem tidy {cfg : Cfg} {input : Bytes} (hlen : input.length < 2 ^ 63) {r : ObjectSet F}
    (h : Obj.parse cfg input = .ok r) {o : Object F} (ho : o ∈ r.objects) : Tidy o where
  small := small_lists hlen h ho
  good := fun e he => good_elements hlen h ho he
  groups := by
    intro g hg
    rcases ((C54_names hlen h).2 o ho).1 g hg with hw | ⟨e, -⟩
    · exact ⟨word_nolf hw, fun hm => (hw.2 _ hm).1 rfl⟩
    · rw [e]; decide
  name := by
    rcases ((C54_names hlen h).2 o ho).2.2 with e | hw | ⟨e, -⟩ | ⟨e, -⟩
    · rw [e]; simp
    · exact .inr (word_nolf hw)
    · rw [e]; decide
    · exact .inl e

variable {cfg : Cfg}

omit [FloatSem F] [FloatShow F] [LawfulFloat F] in
theorem Tidy.text {o : Object F} (h : Tidy o) {e : Element} (he : e ∈ o.element_set) :
    elementText cfg e = spaced (itemOf e).words := by
  rw [elementText, display_element (h.good e he) h.small]; rfl

theorem object_inj {o o' : Object F} (h : Tidy o) (h' : Tidy o') {x y : List Bytes}
    (he : objectLines cfg o ++ x = objectLines cfg o' ++ y) : SameSummary o o' ∧ x = y := by
  have hc : ∀ o : Object F, ∃ k r, k ≠ [] ∧ setsLines cfg o = k :: r := fun o => ⟨_, _, by simp, rfl⟩
  obtain ⟨k, r, hk, e⟩ := hc o
  obtain ⟨k', r', hk', e'⟩ := hc o'
  simp only [objectLines, List.cons_append, List.append_assoc, List.cons.injEq, true_and] at he
  rw [e, e', List.cons_append, List.cons_append] at he
  obtain ⟨hn, he⟩ := nameLines_inj hk hk' he
  rw [← List.cons_append, ← List.cons_append, ← e, ← e'] at he
  simp only [setsLines, List.append_assoc] at he
  obtain ⟨h1, he⟩ := setLines_inj (fun _ _ _ _ h => v_inj h) (.inr ⟨fun _ _ => (quiet_v _).2, fun _ _ => (quiet_v _).2⟩) he
  obtain ⟨h2, he⟩ := setLines_inj (fun _ _ _ _ h => vt_inj h) (.inr ⟨fun _ _ => (quiet_vt _).2, fun _ _ => (quiet_vt _).2⟩) he
  obtain ⟨h3, he⟩ := setLines_inj (fun _ _ _ _ h => vn_inj h) (.inr ⟨fun _ _ => (quiet_vn _).2, fun _ _ => (quiet_vn _).2⟩) he
  obtain ⟨h4, he⟩ := setLines_inj (fun a _ b _ h => by cases a; cases b; exact congrArg _ h)
    (.inl ⟨fun g hg => (h.groups g hg).2, fun g hg => (h'.groups g hg).2⟩) he
  obtain ⟨h5, he⟩ := setLines_inj (fun _ _ _ _ h => s_inj h) (.inr ⟨fun _ _ => (quiet_s _).2, fun _ _ => (quiet_s _).2⟩) he
  obtain ⟨h6, he⟩ := setLines_inj
    (fun a ha b hb e => by
      rw [h.text ha, h'.text hb] at e
      exact element_inj h.small h'.small (h.good a ha) (h'.good b hb) e)
    (.inr ⟨fun a ha => by rw [h.text ha]; exact (quiet_element a).2,
      fun a ha => by rw [h'.text ha]; exact (quiet_element a).2⟩) he
  exact ⟨⟨hn, h1, h2, h3, h4, h5, h6⟩, by simpa using he⟩

theorem objects_inj {os os' : List (Object F)} (h : ∀ o ∈ os, Tidy o) (h' : ∀ o ∈ os', Tidy o)
    (he : os.flatMap (objectLines cfg) ++ [b!"}"] = os'.flatMap (objectLines cfg) ++ [b!"}"]) :
    List.Forall₂ SameSummary os os' := by
  induction os generalizing os' with
  | nil => cases os' with
    | nil => exact .nil
    | cons o os' => simp [objectLines] at he
  | cons o os ih => cases os' with
    | nil => simp [objectLines] at he
    | cons o' os' =>
      rw [List.flatMap_cons, List.flatMap_cons, List.append_assoc, List.append_assoc] at he
      obtain ⟨h1, h2⟩ := object_inj (h o List.mem_cons_self) (h' o' List.mem_cons_self) he
      exact .cons h1 (ih (fun o ho => h o (.tail _ ho)) (fun o ho => h' o (.tail _ ho)) h2)

/-! ## No line contains a line feed -/

omit [FloatSem F] [FloatShow F] [LawfulFloat F] in
theorem setLines_nolf {shown : List Bytes} {name : Bytes} (hn : (10 : UInt8) ∉ name)
    (h : ∀ t ∈ shown, (10 : UInt8) ∉ t) : ∀ l ∈ setLines shown name, (10 : UInt8) ∉ l := by
  intro l hl
  simp only [setLines, List.mem_cons, List.not_mem_nil, or_false] at hl
  rcases hl with rfl | rfl | rfl
  · simp [hn]
  · cases shown with
    | nil => simp [dataLine]
    | cons a r =>
      have h1 := h a List.mem_cons_self
      have h2 := h _ (List.getLast_mem (by simp : a :: r ≠ []))
      simp only [dataLine, List.mem_append, not_or]
      exact ⟨⟨⟨⟨by decide, h1⟩, by decide⟩, h2⟩, by decide⟩
  · simp [(quiet_show _).1]

theorem object_nolf {o : Object F} (h : Tidy o) : ∀ l ∈ objectLines cfg o, (10 : UInt8) ∉ l := by
  have hm : ∀ {α : Type} {g : α → Bytes} {a : List α}, (∀ t ∈ a, (10 : UInt8) ∉ g t) → ∀ t ∈ a.map g, (10 : UInt8) ∉ t := by
    intro α g a h t ht
    obtain ⟨x, hx, rfl⟩ := List.mem_map.mp ht
    exact h x hx
  intro l hl
  simp only [objectLines, List.mem_cons, List.mem_append] at hl
  rcases hl with rfl | hl | hl
  · decide
  · unfold nameLines at hl
    split at hl
    · simp only [List.mem_cons, List.not_mem_nil, or_false] at hl
      rcases hl with rfl | rfl <;> decide
    · next hn =>
      simp only [List.mem_cons, List.not_mem_nil, or_false] at hl
      subst hl
      simp [h.name.resolve_left hn]
  · simp only [setsLines, List.mem_append] at hl
    rcases hl with hl | hl | hl | hl | hl | hl | hl
    · exact setLines_nolf (by decide) (hm fun t _ => (quiet_v t).1) l hl
    · exact setLines_nolf (by decide) (hm fun t _ => (quiet_vt t).1) l hl
    · exact setLines_nolf (by decide) (hm fun t _ => (quiet_vn t).1) l hl
    · exact setLines_nolf (by decide) (hm fun t ht => (h.groups t ht).1) l hl
    · exact setLines_nolf (by decide) (hm fun t _ => (quiet_s t).1) l hl
    · exact setLines_nolf (by decide) (hm fun t ht => by rw [h.text ht]; exact (quiet_element t).1) l hl
    · simp only [List.mem_cons, List.not_mem_nil, or_false] at hl
      rcases hl with rfl | rfl <;> decide

/-! ## The same summary gives the same lines -/

omit [FloatSem F] [FloatShow F] [LawfulFloat F] in
theorem setLines_congr {α : Type} {g : α → Bytes} {a b : List α} (h : SameEnds a b) (name : Bytes) :
    setLines (a.map g) name = setLines (b.map g) name := by
  obtain ⟨h1, h2, h3⟩ := h
  have hd : dataLine (a.map g) = dataLine (b.map g) := by
    cases a with
    | nil => cases b with
      | nil => rfl
      | cons y b => simp at h1
    | cons x a => cases b with
      | nil => simp at h1
      | cons y b =>
        rw [List.getLast?_eq_some_getLast (by simp), List.getLast?_eq_some_getLast (l := y :: b) (by simp)] at h3
        obtain rfl := Option.some.inj h2
        have h3 := Option.some.inj h3
        have e : ∀ (a : List α) p, (g x :: a.map g).getLast p = g ((x :: a).getLast (by simp)) :=
          fun a p => List.getLast_map (f := g) (l := x :: a) p
        simp only [List.map_cons, dataLine, e, h3]
  simp only [setLines, hd, List.length_map, h1]

omit [FloatSem F] [LawfulFloat F] in
theorem object_congr {o o' : Object F} (h : SameSummary o o') : objectLines cfg o = objectLines cfg o' := by
  simp only [objectLines, setsLines, h.name, setLines_congr h.vertices, setLines_congr h.textures,
    setLines_congr h.normals, setLines_congr h.groups, setLines_congr h.smoothing, setLines_congr h.elements]

/-- **C78** The display of a parsed object set shows, object by object, the name and for each of the
six tables its length and its first and last entries: two results (of any two texts, parsed in any
builds) are displayed alike exactly if they agree in these. Material libraries, geometries, shape
entries and inner entries are not shown. -/
theorem C78_display (cfg₁ cfg₂ : Cfg) {a b : Bytes} (ha : a.length < 2 ^ 63) (hb : b.length < 2 ^ 63)
    {r r' : ObjectSet F} (h : Obj.parse cfg₁ a = .ok r) (h' : Obj.parse cfg₂ b = .ok r') (cfg : Cfg) :
    r.display cfg = r'.display cfg ↔ List.Forall₂ SameSummary r.objects r'.objects := by
  have ht : ∀ o ∈ r.objects, Tidy o := fun o ho => tidy ha h ho
  have ht' : ∀ o ∈ r'.objects, Tidy o := fun o ho => tidy hb h' ho
  rw [display_eq fun o ho e he => (((C48_display_total ha h cfg).2 o ho).2 e he).1,
    display_eq fun o ho e he => (((C48_display_total hb h' cfg).2 o ho).2 e he).1, Option.some.injEq]
  have nolf : ∀ os : List (Object F), (∀ o ∈ os, Tidy o) → ∀ l ∈ allLines cfg os, (10 : UInt8) ∉ l := by
    intro os hs l hl
    simp only [allLines, List.mem_cons, List.mem_append, List.not_mem_nil, or_false, List.mem_flatMap] at hl
    rcases hl with rfl | ⟨o, ho, hl⟩ | rfl
    · decide
    · exact object_nolf (hs o ho) l hl
    · decide
  constructor
  · intro he
    have := joinLines_inj (nolf _ ht) (nolf _ ht') he
    exact objects_inj ht ht' (List.cons.inj this).2
  · intro hs
    have : r.objects.flatMap (objectLines cfg) = r'.objects.flatMap (objectLines cfg) := by
      generalize r.objects = os at hs
      generalize r'.objects = os' at hs
      induction hs with
      | nil => rfl
      | cons h1 _ ih => rw [List.flatMap_cons, List.flatMap_cons, object_congr h1, ih]
    rw [allLines, this, allLines]

/-- **C78** The same for one object. -/
theorem C78_object (cfg₁ cfg₂ : Cfg) {a b : Bytes} (ha : a.length < 2 ^ 63) (hb : b.length < 2 ^ 63)
    {r r' : ObjectSet F} (h : Obj.parse cfg₁ a = .ok r) (h' : Obj.parse cfg₂ b = .ok r')
    {o o' : Object F} (ho : o ∈ r.objects) (ho' : o' ∈ r'.objects) (cfg : Cfg) :
    o.display cfg = o'.display cfg ↔ SameSummary o o' := by
  have ht := tidy ha h ho
  have ht' := tidy hb h' ho'
  obtain ⟨t, e, hl⟩ := compose_eq fun e he => (((C48_display_total ha h cfg).2 o ho).2 e he).1
  obtain ⟨t', e', hl'⟩ := compose_eq fun e he => (((C48_display_total hb h' cfg).2 o' ho').2 e he).1
  unfold Object.display
  rw [e, e', Option.some.injEq]
  constructor
  · rintro rfl
    have := joinLines_inj (object_nolf ht) (object_nolf ht') (hl.symm.trans hl')
    exact (object_inj ht ht' (x := []) (y := []) (by rw [this])).1
  · intro hs
    rw [object_congr hs] at hl
    exact List.append_cancel_right (hl.trans hl'.symm)

end

/-- What is displayed, with a table that is empty, one with one entry and ones with more. -/
example : (match (Obj.parse debug b!"o a\nv 1 2 3\nv 4 5 6\nv 7 8 9\ng x y\nf 1 2 3\nl 1 2\n" : Out ErrorKind (ObjectSet Bytes)) with
    | .ok r => r.display debug
    | _ => none) = some (b!"ObjectSet {\nObject {\n    name: a\n" ++
      b!"    vertex set:\n        data: [(v  1  2  3  1) ... (v  7  8  9  1)]\n        length: 3\n" ++
      b!"    texture vertex set:\n        data: []\n        length: 0\n" ++
      b!"    normal vertex set:\n        data: []\n        length: 0\n" ++
      b!"    group set:\n        data: [(x) ... (y)]\n        length: 2\n" ++
      b!"    smoothing group set:\n        data: [(off) ... (off)]\n        length: 1\n" ++
      b!"    element set:\n        data: [(f  1  2  3) ... (l  1  2)]\n        length: 2\n}}\n\n}\n") := by
  decide +kernel

/-- Two results with different libraries, materials and inner vertices that are displayed alike. -/
example : ∃ r r' : ObjectSet NumText, Obj.parse debug b!"mtllib m\no a\nv 1 2 3\nv 4 5 6\nv 7 8 9\nusemtl x\nf 1 2 3\n" = .ok r ∧
    Obj.parse release b!"o a\nv 1 2 3\nv 0 0 0\nv 7 8 9\nf 1 2 3\n" = .ok r' ∧ r ≠ r' ∧
      List.Forall₂ SameSummary r.objects r'.objects ∧ r.display debug = r'.display debug := by
  have h : (match (Obj.parse debug b!"mtllib m\no a\nv 1 2 3\nv 4 5 6\nv 7 8 9\nusemtl x\nf 1 2 3\n" : Out ErrorKind (ObjectSet NumText)),
      (Obj.parse release b!"o a\nv 1 2 3\nv 0 0 0\nv 7 8 9\nf 1 2 3\n" : Out ErrorKind (ObjectSet NumText)) with
      | .ok r, .ok r' => r.material_libraries.length != r'.material_libraries.length &&
          r.display debug == r'.display debug
      | _, _ => false) = true := by decide +kernel
  split at h
  · next r r' hr hr' =>
    simp only [Bool.and_eq_true, bne_iff_ne, ne_eq, beq_iff_eq] at h
    exact ⟨r, r', hr, hr', fun e => h.1 (by rw [e]),
      (C78_display debug release (by decide) (by decide) hr hr' debug).mp h.2, h.2⟩
  · exact absurd h (by simp)

end Verif.Props
