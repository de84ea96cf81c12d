import Verif.Props.RoundTrip
import Verif.Proofs.SimObj

/-!
# Properties C34, C42: what `Display` prints can be read back
-/

namespace Verif.Props

open Verif Verif.Obj Verif.Spec Verif.Spec.Obj

variable {F : Type} [FloatSem F] {cfg : Cfg} {input : Bytes}

/-- Words separated by two spaces. -/
def spaced (ws : List Bytes) : Bytes := List.intercalate b!"  " ws

theorem tokens_spaced {ws : List Bytes} (h : ∀ w ∈ ws, Word w) : tokens (spaced ws) = ws := by
  induction ws with
  | nil => rfl
  | cons w ws ih =>
    have hw := h w (by simp)
    cases ws with
    | nil =>
      have := tokensOf_word byteAlphabet w [] hw.1 (word_ordinary hw) (by simp)
      rw [List.append_nil, tokensOf_nil] at this
      have e : spaced [w] = w := by simp [spaced, List.intercalate]
      rw [e]
      exact this
    | cons w' ws =>
      have e : spaced (w :: w' :: ws) = w ++ 32 :: 32 :: spaced (w' :: ws) := by
        simp [spaced, List.intercalate]
      have hb : tokens (32 :: spaced (w' :: ws)) = tokens (spaced (w' :: ws)) :=
        tokensOf_blank byteAlphabet rfl rfl rfl _
      rw [e, tokens_token_blank (.inl hw), hb, ih (fun x hx => h x (by simp [hx]))]

theorem sp1 {a : Bytes} : spaced [a] = a := by simp [spaced, List.intercalate]
theorem sp2 {a b : Bytes} {ws} : spaced (a :: b :: ws) = a ++ b!"  " ++ spaced (b :: ws) := by
  simp [spaced, List.intercalate]

/-! ## References and elements -/

/-- The written form of a stored index, counting from 1. -/
def refOf : VTNIndex → Ref
  | .V v => ⟨v + 1, none, none⟩
  | .VT v t => ⟨v + 1, some (t + 1), none⟩
  | .VN v n => ⟨v + 1, none, some (n + 1)⟩
  | .VTN v t n => ⟨v + 1, some (t + 1), some (n + 1)⟩

/-- How many vertices, texture vertices and normals the object has. -/
def countsIn (o : Object F) : Counts :=
  ⟨o.vertex_set.length, o.texture_vertex_set.length, o.normal_vertex_set.length⟩

/-- The index ranges of an object that is alone in its file. -/
def rangesIn (o : Object F) : Ranges :=
  ⟨(0, o.vertex_set.length), (0, o.texture_vertex_set.length), (0, o.normal_vertex_set.length)⟩

omit [FloatSem F] in
theorem refOf_valid {o : Object F} {x : VTNIndex} (h : Exist o x) : ValidRef {} (countsIn o) (refOf x) := by
  cases x <;> simp only [Exist] at h <;> simp [ValidRef, refOf, countsIn] <;> omega

theorem refOf_resolve (x : VTNIndex) : (refOf x).resolve {} = x := by
  cases x <;> simp [refOf, Ref.resolve]

theorem incr_small {n : Nat} (h : n < 2 ^ 63) : incr cfg n = some (n + 1) := by
  unfold incr usizeMax
  rw [if_pos (by omega)]

omit [FloatSem F] in
theorem display_ref {o : Object F} {x : VTNIndex} (h : Exist o x) (hs : Small (countsIn o)) :
    x.display cfg = some (refOf x).text := by
  obtain ⟨h1, h2, h3⟩ := hs
  dsimp only [countsIn] at h1 h2 h3
  cases x <;> simp only [Exist] at h <;> simp only [VTNIndex.display, refOf, Ref.text]
  · rw [incr_small (by omega)]; rfl
  · rw [incr_small (by omega), incr_small (by omega)]; rfl
  · rw [incr_small (by omega), incr_small (by omega)]; rfl
  · rw [incr_small (by omega), incr_small (by omega), incr_small (by omega)]; rfl

/-- Running a parser method on a text is running it on the tokens. -/
theorem run_text {α : Type} {p : P (List Tok) ErrorKind α} {q : P PeekableLexer ErrorKind α}
    (hsim : Sim 0 (fun b a => Holds a b) p q) {text : Bytes} {a : α} {rest}
    (h : Yields p (tokens text) (.ok a) rest) : (q (Parser.new text)).1 = .ok a := by
  obtain ⟨line, e1, e2⟩ := h.run 1
  have hs := hsim.run ⟨1, tokens text⟩ (Parser.new text) ⟨rfl, holds_new text⟩
  rw [e2] at hs
  have h1 := hs.1
  generalize (q (Parser.new text)).1 = z at h1 ⊢
  cases z <;> simp_all [OutRel, Res.at]

omit [FloatSem F] in
/-- **C34** The displayed form of a vertex/texture/normal index that points into an object,
read against the ranges of that object, gives the index back. -/
theorem C34_index {o : Object F} (hv : o.vertex_set.length < 2 ^ 63) (ht : o.texture_vertex_set.length < 2 ^ 63)
    (hn : o.normal_vertex_set.length < 2 ^ 63) {x : VTNIndex} (h : (o.get_vtn_triple x).isSome = true) :
    ∃ text, x.display cfg = some text ∧
      (parse_vtn_index cfg (rangesIn o) (Parser.new text)).1 = .ok x := by
  have he := (C36_some_iff o x).mp h
  have hs : Small (countsIn o) := ⟨hv, ht, hn⟩
  refine ⟨_, display_ref he hs, ?_⟩
  have htok : tokens (refOf x).text = [(refOf x).text] := by
    have := tokens_spaced (ws := [(refOf x).text]) (by simpa using word_ref _)
    rwa [sp1] at this
  have hy := vtn_ok cfg (refTok_text (refOf_valid he) hs) []
  rw [← htok, refOf_resolve] at hy
  exact run_text (sim_parse_vtn_index holds_bisim.symm cfg _) hy

/-- The statement that draws one element. -/
def itemOf : Element → Item
  | .Point a => .p [(refOf a).v]
  | .Line a b => .l [refOf a, refOf b]
  | .Face a b c => .f [refOf a, refOf b, refOf c]

/-- An element of the kind the parser builds: its indices exist, have one form, and a point
has form `V`. -/
structure GoodElement {F : Type} (o : Object F) (e : Element) : Prop where
  exist : ∀ x ∈ indices e, (o.get_vtn_triple x).isSome = true
  uniform : ∀ x ∈ indices e, ∀ y ∈ indices e, x.has_same_type_as y = true
  point : ∀ x, e = .Point x → ∃ v, x = .V v

/-- Every element of a parsed object is of this kind. -/
theorem good_elements (hlen : input.length < 2 ^ 63) {r : ObjectSet F} (h : Obj.parse cfg input = .ok r)
    {o : Object F} (ho : o ∈ r.objects) {e : Element} (he : e ∈ o.element_set) : GoodElement o e where
  exist := C10_indices_resolve hlen h o ho e he
  uniform := by
    intro x hx y hy
    rcases (C11_uniform_elements hlen h o ho e he).1 x hx y hy with
      ⟨a, b, rfl, rfl⟩ | ⟨a, a', b, b', rfl, rfl⟩ | ⟨a, a', b, b', rfl, rfl⟩ | ⟨a, a', a'', b, b', b'', rfl, rfl⟩ <;> rfl
  point := (C11_uniform_elements hlen h o ho e he).2

theorem body_items_le {lo hi : Counts} {items toks rest} (h : Body cfg lo hi items toks rest) :
    items.length + rest.length ≤ toks.length := by
  induction h with
  | done h => simp
  | blank _ ih => simp only [List.length_cons]; omega
  | stmt h _ ih => have := Stmt.length_lt h; simp only [List.length_cons]; omega

theorem objects_items_le {lo : Counts} {objs toks} (h : Objects cfg lo objs toks) :
    (objs.flatMap ObjAst.items).length ≤ toks.length := by
  induction h with
  | done => simp
  | obj hh hb _ _ ih =>
    have := body_items_le hb
    have := header_length_le hh
    simp only [List.flatMap_cons, List.length_append]
    omega

/-- The vertex lists of a parsed object are no longer than the text. -/
theorem lists_le (hlen : input.length < 2 ^ 63) {r : ObjectSet F} (h : Obj.parse cfg input = .ok r)
    {o : Object F} (ho : o ∈ r.objects) : o.vertex_set.length ≤ input.length ∧
      o.texture_vertex_set.length ≤ input.length ∧ o.normal_vertex_set.length ≤ input.length := by
  obtain ⟨before, items, after, name, rfl, _, file, ⟨rest, hl, hob⟩, e⟩ := parsed_from hlen h ho
  have h1 := objects_items_le hob
  rw [e] at h1
  simp only [List.length_append] at h1
  have h2 := libs_length_le hl
  have h3 := length_tokens_le input
  have d := data_of (F := F) (countsOf before) items
  have k1 := List.length_filterMap_le (Item.vertex? (F := F)) items
  have k2 := List.length_filterMap_le (Item.texture? (F := F)) items
  have k3 := List.length_filterMap_le (Item.normal? (F := F)) items
  rw [← d.vertices] at k1
  rw [← d.textures] at k2
  rw [← d.normals] at k3
  exact ⟨k1.trans (by omega), k2.trans (by omega), k3.trans (by omega)⟩

theorem small_lists (hlen : input.length < 2 ^ 63) {r : ObjectSet F} (h : Obj.parse cfg input = .ok r)
    {o : Object F} (ho : o ∈ r.objects) : Small (countsIn o) := by
  obtain ⟨h1, h2, h3⟩ := lists_le hlen h ho
  exact ⟨h1.trans_lt hlen, h2.trans_lt hlen, h3.trans_lt hlen⟩

omit [FloatSem F] in
theorem refOf_form {x y : VTNIndex} (h : x.has_same_type_as y = true) : (refOf x).form = (refOf y).form := by
  cases x <;> cases y <;> simp_all [VTNIndex.has_same_type_as, refOf, Ref.form]

omit [FloatSem F] in
theorem itemOf_valid {o : Object F} {e : Element} (h : GoodElement o e) :
    ValidItem {} (countsIn o) (itemOf e) := by
  have hr : ∀ x ∈ indices e, ValidRef {} (countsIn o) (refOf x) :=
    fun x hx => refOf_valid ((C36_some_iff o x).mp (h.exist x hx))
  have hu : Uniform ((indices e).map refOf) := by
    intro a ha b hb
    obtain ⟨x, hx, rfl⟩ := List.mem_map.mp ha
    obtain ⟨y, hy, rfl⟩ := List.mem_map.mp hb
    exact refOf_form (h.uniform x hx y hy)
  cases e with
  | Point a => exact ⟨by simp, by simpa using (hr a (by simp [indices])).1⟩
  | Line a b => exact ⟨by simp, hu, by simpa [indices] using hr⟩
  | Face a b c => exact ⟨by simp, hu, by simpa [indices] using hr⟩

omit [FloatSem F] in
theorem itemOf_elements {o : Object F} {e : Element} (h : GoodElement o e) : (itemOf e).elements {} = [e] := by
  cases e with
  | Point a =>
    obtain ⟨v, rfl⟩ := h.point a rfl
    simp [itemOf, Item.elements, refOf]
  | Line a b => simp [itemOf, Item.elements, refOf_resolve, segments]
  | Face a b c => simp [itemOf, Item.elements, refOf_resolve, fan]

omit [FloatSem F] in
theorem display_element {o : Object F} {e : Element} (h : GoodElement o e) (hs : Small (countsIn o)) :
    e.display cfg = some (spaced (itemOf e).words) := by
  have hd : ∀ x ∈ indices e, x.display cfg = some (refOf x).text :=
    fun x hx => display_ref ((C36_some_iff o x).mp (h.exist x hx)) hs
  cases e with
  | Point a =>
    obtain ⟨v, rfl⟩ := h.point a rfl
    simp only [Element.display, hd (.V v) (by simp [indices]), itemOf, Item.words, List.map_cons, List.map_nil, sp2, sp1]
    rfl
  | Line a b =>
    simp only [Element.display, hd a (by simp [indices]), hd b (by simp [indices]), itemOf, Item.words,
      List.map_cons, List.map_nil, sp2, sp1, Option.pure_def, Option.bind_eq_bind, Option.bind_some]
    simp
  | Face a b c =>
    simp only [Element.display, hd a (by simp [indices]), hd b (by simp [indices]), hd c (by simp [indices]),
      itemOf, Item.words, List.map_cons, List.map_nil, sp2, sp1, Option.pure_def, Option.bind_eq_bind, Option.bind_some]
    simp

theorem itemOf_words (e : Element) : ∀ w ∈ (itemOf e).words, Word w := by
  have hk : ∀ k ∈ [b!"p", b!"l", b!"f"], Word k := by unfold Word; decide
  cases e <;> simp [itemOf, Item.words, word_ref, word_showNat, hk]

omit [FloatSem F] in
theorem stmt_itemOf {o : Object F} {e : Element} (h : GoodElement o e) (hs : Small (countsIn o)) :
    Stmt cfg {} (countsIn o) (itemOf e) (itemOf e).words [] := by
  have hv := itemOf_valid h
  cases e with
  | Point a =>
    have := Stmt.p (cfg := cfg) (mid := []) (rest := []) hv.1
      (forall₂_map fun k hk => numTok_show (hv.2 k hk).1 (hv.2 k hk).2 hs.1) (.inr ⟨rfl, rfl⟩)
    rwa [List.append_nil] at this
  | Line a b =>
    have := Stmt.l (cfg := cfg) (mid := []) (rest := []) hv.1
      (forall₂_map fun r hr => refTok_text (hv.2.2 r hr) hs) hv.2.1 (.inr ⟨rfl, rfl⟩)
    rwa [List.append_nil] at this
  | Face a b c =>
    have := Stmt.f (cfg := cfg) (mid := []) (rest := []) hv.1
      (forall₂_map fun r hr => refTok_text (hv.2.2 r hr) hs) hv.2.1 (.inr ⟨rfl, rfl⟩)
    rwa [List.append_nil] at this

/-- **C34** The displayed form of an element of a parsed object, read against the ranges of
that object, gives exactly that element back. -/
theorem C34_element (hlen : input.length < 2 ^ 63) {r : ObjectSet F} (h : Obj.parse cfg input = .ok r)
    {o : Object F} (ho : o ∈ r.objects) {e : Element} (he : e ∈ o.element_set) (es : List Element) :
    ∃ text, e.display cfg = some text ∧
      (parse_elements cfg (text.length + 1) es (rangesIn o) (Parser.new text)).1 = .ok (es ++ [e], 1) := by
  have hg := good_elements hlen h ho he
  have hs := small_lists hlen h ho
  refine ⟨_, display_element hg hs, ?_⟩
  have htok := tokens_spaced (itemOf_words e)
  have hi := itemOf_elements hg
  have hst := stmt_itemOf (cfg := cfg) hg hs
  have hel : (itemOf e).isElement = true := by cases e <;> rfl
  have hl := length_tokens_le (spaced (itemOf e).words)
  generalize spaced (itemOf e).words = text at htok hl ⊢
  generalize itemOf e = it at htok hi hst hel hl
  rw [htok] at hl
  have hy := elements_ok hs hst hel (fuel := text.length + 1) (by omega) es
  rw [hi, ← htok] at hy
  exact run_text (sim_parse_elements holds_bisim.symm cfg (Nat.le_refl _) _ _) hy

/-- Indices of all four forms and all kinds of elements are covered. -/
example : (sampleResult.objects.flatMap Object.element_set).map (Element.display debug) =
    [some b!"f  1/1/1  2/1/1  3/1/1", some b!"f  1/1/1  3/1/1  4/1/1", some b!"l  1//1  2//1",
     some b!"l  2//1  3//1", some b!"p  1", some b!"p  2", some b!"p  1", some b!"p  1", some b!"p  1"] := by
  decide +kernel

example : (VTNIndex.VT 2 7).display release = some b!"3/8" ∧
    (parse_vtn_index release ⟨(0, 3), (0, 9), (0, 0)⟩ (Parser.new b!"3/8")).1 = .ok (.VT 2 7) := by
  decide +kernel

/-! ## Whole objects -/

/-- What is needed of printing and reading `f64`: the printed text is a number and reads
back as the same value. -/
class LawfulFloat (F : Type) [FloatSem F] [FloatShow F] : Prop where
  isFloat_display (x : F) : isFloat (FloatShow.display x) = true
  value_display (x : F) : FloatSem.value (FloatShow.display x) = x

/-- All vertices, texture vertices, normals and elements of an object, displayed one per line. -/
def dump [FloatShow F] (cfg : Cfg) (o : Object F) : Option Bytes := do
  let elements ← o.element_set.mapM (Element.display cfg)
  return (o.vertex_set.map Vertex.display ++ o.texture_vertex_set.map TextureVertex.display ++
    o.normal_vertex_set.map NormalVertex.display ++ elements).flatMap (· ++ b!"\n")

section
variable [FloatShow F]

def vItem (a : Vertex F) : Item :=
  .v (FloatShow.display a.x) (FloatShow.display a.y) (FloatShow.display a.z) (some (FloatShow.display a.w))
def vtItem (a : TextureVertex F) : Item :=
  .vt (FloatShow.display a.u) (some (FloatShow.display a.v)) (some (FloatShow.display a.w))
def vnItem (a : NormalVertex F) : Item :=
  .vn (FloatShow.display a.x) (FloatShow.display a.y) (FloatShow.display a.z)

/-- The statements of a dumped object. -/
def itemsOf (o : Object F) : List Item :=
  o.vertex_set.map vItem ++ o.texture_vertex_set.map vtItem ++ o.normal_vertex_set.map vnItem ++
    o.element_set.map itemOf

theorem validItems_append {lo hi : Counts} {a b : List Item} (ha : ValidItems lo hi a)
    (hb : ValidItems lo (hi + countsOf a) b) : ValidItems lo hi (a ++ b) := by
  induction a generalizing hi with
  | nil =>
    have : hi + countsOf [] = hi := by rw [counts_add]; rfl
    rwa [this] at hb
  | cons it a ih =>
    refine ⟨ha.1, ih ha.2 ?_⟩
    rwa [countsOf_cons, ← counts_add_assoc] at hb

/-- Statements that define something are valid anywhere; so are element statements, if they
are valid at the end. -/
theorem validItems_all {lo hi : Counts} {items : List Item} (h : ∀ it ∈ items, ∀ hi, ValidItem lo hi it) :
    ValidItems lo hi items := by
  induction items generalizing hi with
  | nil => trivial
  | cons it items ih => exact ⟨h it (by simp) _, ih fun x hx => h x (by simp [hx])⟩

theorem validItems_elements {lo hi : Counts} {items : List Item}
    (h : ∀ it ∈ items, it.counts = {} ∧ ValidItem lo hi it) : ValidItems lo hi items := by
  induction items with
  | nil => trivial
  | cons it items ih =>
    obtain ⟨h1, h2⟩ := h it (by simp)
    refine ⟨h2, ?_⟩
    rw [h1]
    exact ih fun x hx => h x (by simp [hx])

omit [FloatSem F] in
theorem counts_data (o : Object F) : countsOf (o.vertex_set.map vItem ++ o.texture_vertex_set.map vtItem ++
    o.normal_vertex_set.map vnItem) = countsIn o := by
  have h1 : ∀ l : List (Vertex F), countsOf (l.map vItem) = ⟨l.length, 0, 0⟩ := by
    intro l
    induction l with
    | nil => rfl
    | cons a l ih =>
      rw [List.map_cons, countsOf_cons, ih, counts_add]
      simp only [vItem, Item.counts, List.length_cons, Counts.mk.injEq, and_true, Nat.add_zero]; omega
  have h2 : ∀ l : List (TextureVertex F), countsOf (l.map vtItem) = ⟨0, l.length, 0⟩ := by
    intro l
    induction l with
    | nil => rfl
    | cons a l ih =>
      rw [List.map_cons, countsOf_cons, ih, counts_add]
      simp only [vtItem, Item.counts, List.length_cons, Counts.mk.injEq, and_true, true_and, Nat.add_zero]; omega
  have h3 : ∀ l : List (NormalVertex F), countsOf (l.map vnItem) = ⟨0, 0, l.length⟩ := by
    intro l
    induction l with
    | nil => rfl
    | cons a l ih =>
      rw [List.map_cons, countsOf_cons, ih, counts_add]
      simp only [vnItem, Item.counts, List.length_cons, Counts.mk.injEq, true_and, Nat.add_zero]; omega
  rw [countsOf_append, countsOf_append, h1, h2, h3, counts_add, counts_add]
  simp [countsIn]

theorem itemsOf_valid [LawfulFloat F] {o : Object F} (h : ∀ e ∈ o.element_set, GoodElement o e) :
    ValidItems {} {} (itemsOf o) := by
  have hf := LawfulFloat.isFloat_display (F := F)
  unfold itemsOf
  refine validItems_append (validItems_all ?_) (validItems_elements ?_)
  · intro it hit hi
    simp only [List.mem_append, List.mem_map] at hit
    rcases hit with (⟨a, _, rfl⟩ | ⟨a, _, rfl⟩) | ⟨a, _, rfl⟩
    · exact ⟨hf _, hf _, hf _, by simp [hf]⟩
    · exact ⟨hf _, by simp [hf], by simp [hf], by simp⟩
    · exact ⟨hf _, hf _, hf _⟩
  · intro it hit
    obtain ⟨e, he, rfl⟩ := List.mem_map.mp hit
    have e0 : ({} : Counts) + countsIn o = countsIn o := by rw [counts_add]; simp
    rw [counts_data, e0]
    exact ⟨by cases e <;> rfl, itemOf_valid (h e he)⟩

theorem words_all [LawfulFloat F] (o : Object F) : ∀ it ∈ itemsOf o, ∀ w ∈ it.words, Word w := by
  have hf : ∀ x : F, Word (FloatShow.display x) := fun x => word_float (LawfulFloat.isFloat_display x)
  have hk : Word b!"v" ∧ Word b!"vt" ∧ Word b!"vn" := by unfold Word; decide
  intro it hit
  simp only [itemsOf, List.mem_append, List.mem_map] at hit
  rcases hit with ((⟨a, _, rfl⟩ | ⟨a, _, rfl⟩) | ⟨a, _, rfl⟩) | ⟨e, _, rfl⟩
  · simp [vItem, Item.words, hf, hk]
  · simp [vtItem, Item.words, hf, hk]
  · simp [vnItem, Item.words, hf, hk]
  · exact itemOf_words e

omit [FloatSem F] in
theorem display_v (a : Vertex F) : a.display = spaced (vItem a).words := by
  simp only [Vertex.display, vItem, Item.words, Option.toList_some, List.cons_append, List.nil_append, sp2, sp1]
  simp
omit [FloatSem F] in
theorem display_vt (a : TextureVertex F) : a.display = spaced (vtItem a).words := by
  simp only [TextureVertex.display, vtItem, Item.words, Option.toList_some, List.cons_append, List.nil_append, sp2, sp1]
  simp
omit [FloatSem F] in
theorem display_vn (a : NormalVertex F) : a.display = spaced (vnItem a).words := by
  simp only [NormalVertex.display, vnItem, Item.words, sp2, sp1]
  simp

omit [FloatSem F] in
theorem dump_eq {o : Object F} (h : ∀ e ∈ o.element_set, GoodElement o e) (hs : Small (countsIn o)) :
    dump cfg o = some ((itemsOf o).flatMap fun it => spaced it.words ++ b!"\n") := by
  have hm : o.element_set.mapM (Element.display cfg) = some (o.element_set.map fun e => spaced (itemOf e).words) := by
    generalize o.element_set = l at h
    induction l with
    | nil => rfl
    | cons e l ih =>
      rw [List.mapM_cons, display_element (h e (by simp)) hs, ih fun x hx => h x (by simp [hx])]
      rfl
  unfold dump
  rw [hm]
  simp only [itemsOf, Option.bind_eq_bind, Option.bind_some, Option.pure_def,
    List.flatMap_append, List.flatMap_map, display_v, display_vt, display_vn]

theorem tokens_lines {items : List Item} (h : ∀ it ∈ items, ∀ w ∈ it.words, Word w) :
    tokens (items.flatMap fun it => spaced it.words ++ b!"\n") = tokens (itemsText items) := by
  induction items with
  | nil => rfl
  | cons it items ih =>
    have h1 := h it (by simp)
    have ih := ih fun x hx => h x (by simp [hx])
    have e1 : ((it :: items).flatMap fun it => spaced it.words ++ b!"\n") =
      spaced it.words ++ 10 :: (items.flatMap fun it => spaced it.words ++ b!"\n") := by simp
    have e2 : itemsText (it :: items) = lineText it.words ++ itemsText items := by simp [itemsText]
    rw [e1, e2, tokens_append_nl, tokens_spaced h1, tokens_line fun w hw => .inl (h1 w hw), ih]

omit [FloatShow F] in
theorem itemOf_not_data (e : Element) : (itemOf e).vertex? (F := F) = none ∧
    (itemOf e).texture? (F := F) = none ∧ (itemOf e).normal? (F := F) = none := by
  cases e <;> exact ⟨rfl, rfl, rfl⟩

theorem lines_length (items : List Item) : (itemsText items).length ≤
    (items.flatMap fun it => spaced it.words ++ b!"\n").length := by
  induction items with
  | nil => simp [itemsText]
  | cons it items ih =>
    have e2 : itemsText (it :: items) = lineText it.words ++ itemsText items := by simp [itemsText]
    have : (List.intercalate [32] it.words).length ≤ (spaced it.words).length := by
      generalize it.words = ws
      induction ws with
      | nil => simp [spaced, List.intercalate]
      | cons w ws ih =>
        cases ws with
        | nil => simp [spaced, List.intercalate]
        | cons w' ws =>
          simp only [spaced, List.intercalate, List.intersperse_cons_cons, List.flatten_cons,
            List.length_append] at ih ⊢
          simp only [List.length_cons, List.length_nil] at ih ⊢
          omega
    rw [e2]
    simp only [List.flatMap_cons, List.length_append, lineText] at ih ⊢
    simp only [List.length_cons, List.length_nil] at ih ⊢
    omega

/-- **C34** The displayed vertices, texture vertices, normals and elements of a parsed object
with at least one element, one per line, are an OBJ file; reading it gives one object with
the same vertices, texture vertices, normals and elements. -/
theorem C34_object [LawfulFloat F] (hlen : input.length < 2 ^ 63) {r : ObjectSet F}
    (h : Obj.parse cfg input = .ok r) {o : Object F} (ho : o ∈ r.objects) (hne : o.element_set ≠ []) :
    ∃ text, dump cfg o = some text ∧ (text.length < 2 ^ 63 →
      ∃ o' : Object F, Obj.parse cfg text = .ok ⟨[], [o']⟩ ∧ o'.name = [] ∧ o'.vertex_set = o.vertex_set ∧
        o'.texture_vertex_set = o.texture_vertex_set ∧ o'.normal_vertex_set = o.normal_vertex_set ∧
        o'.element_set = o.element_set) := by
  have hg : ∀ e ∈ o.element_set, GoodElement o e := fun e he => good_elements hlen h ho he
  have hs := small_lists hlen h ho
  refine ⟨_, dump_eq hg hs, fun hl => ⟨objMeaning {} ⟨[], itemsOf o⟩, ?_⟩⟩
  have hl' := lt_of_le_of_lt (lines_length (itemsOf o)) hl
  have hbare : ¬ Bare (itemsOf o) := by
    obtain ⟨e, he⟩ := List.exists_mem_of_ne_nil _ hne
    intro hb
    have hm : itemOf e ∈ itemsOf o := by
      unfold itemsOf
      exact List.mem_append_right _ (List.mem_map_of_mem he)
    have := hb _ hm
    cases e <;> simp_all [itemOf, Item.isElement]
  have hv : ValidFile ⟨[], [⟨[], itemsOf o⟩]⟩ := ⟨by simp, .inl rfl, itemsOf_valid hg, hbare, trivial⟩
  have et : FileAst.text ⟨[], [⟨[], itemsOf o⟩]⟩ = itemsText (itemsOf o) := by
    simp [FileAst.text, ObjAst.text]
  have hp := C28_write_read (F := F) (cfg := cfg) hv (by rw [et]; exact hl')
  rw [et] at hp
  refine ⟨?_, rfl, ?_⟩
  · rw [Obj.parse_congr hl hl' (tokens_lines (words_all o)), hp]; rfl
  · have d := data_of (F := F) {} (itemsOf o)
    have hval := LawfulFloat.value_display (F := F)
    refine ⟨d.vertices.trans ?_, d.textures.trans ?_, d.normals.trans ?_, d.elements.trans ?_⟩
    · simp only [itemsOf, List.filterMap_append, List.filterMap_map]
      have e1 : (Item.vertex? (F := F)) ∘ vItem = some := by
        funext a; simp [vItem, Item.vertex?, hval]
      have e2 : (Item.vertex? (F := F)) ∘ vtItem (F := F) = fun _ => none := rfl
      have e3 : (Item.vertex? (F := F)) ∘ vnItem (F := F) = fun _ => none := rfl
      have e4 : (Item.vertex? (F := F)) ∘ itemOf = fun _ => none := funext fun e => (itemOf_not_data e).1
      rw [e1, e2, e3, e4]; simp
    · simp only [itemsOf, List.filterMap_append, List.filterMap_map]
      have e1 : (Item.texture? (F := F)) ∘ vtItem = some := by
        funext a; simp [vtItem, Item.texture?, hval]
      have e2 : (Item.texture? (F := F)) ∘ vItem (F := F) = fun _ => none := rfl
      have e3 : (Item.texture? (F := F)) ∘ vnItem (F := F) = fun _ => none := rfl
      have e4 : (Item.texture? (F := F)) ∘ itemOf = fun _ => none := funext fun e => (itemOf_not_data e).2.1
      rw [e1, e2, e3, e4]; simp
    · simp only [itemsOf, List.filterMap_append, List.filterMap_map]
      have e1 : (Item.normal? (F := F)) ∘ vnItem = some := by
        funext a; simp [vnItem, Item.normal?, hval]
      have e2 : (Item.normal? (F := F)) ∘ vItem (F := F) = fun _ => none := rfl
      have e3 : (Item.normal? (F := F)) ∘ vtItem (F := F) = fun _ => none := rfl
      have e4 : (Item.normal? (F := F)) ∘ itemOf = fun _ => none := funext fun e => (itemOf_not_data e).2.2
      rw [e1, e2, e3, e4]; simp
    · simp only [itemsOf, List.flatMap_append, List.flatMap_map]
      have e1 : ∀ l : List (Vertex F), l.flatMap (fun a => (vItem a).elements {}) = [] := by
        intro l; simp [vItem, Item.elements]
      have e2 : ∀ l : List (TextureVertex F), l.flatMap (fun a => (vtItem a).elements {}) = [] := by
        intro l; simp [vtItem, Item.elements]
      have e3 : ∀ l : List (NormalVertex F), l.flatMap (fun a => (vnItem a).elements {}) = [] := by
        intro l; simp [vnItem, Item.elements]
      rw [e1, e2, e3]
      simp only [List.nil_append]
      generalize o.element_set = l at hg
      clear hne
      induction l with
      | nil => rfl
      | cons e l ih =>
        rw [List.flatMap_cons, itemOf_elements (hg e (by simp)), ih fun x hx => hg x (by simp [hx])]
        rfl

end

/-- Number texts as values: the laws hold. -/
def NumText := { b : Bytes // isFloat b = true }
instance : FloatShow NumText := ⟨Subtype.val⟩
instance : FloatSem NumText :=
  ⟨fun b => if h : isFloat b = true then ⟨b, h⟩ else ⟨b!"0", by decide⟩, ⟨b!"0", by decide⟩, ⟨b!"1", by decide⟩⟩
instance : LawfulFloat NumText where
  isFloat_display x := x.2
  value_display x := by
    show (if h : isFloat x.1 = true then (⟨x.1, h⟩ : NumText) else _) = x
    rw [dif_pos x.2]
    rfl

instance : FloatShow Bytes := ⟨id⟩

/-- The second object of the sample refers to vertex 5 of its file; its dump refers to vertex 1. -/
example : (sampleResult.objects[1]?.bind (dump debug)) = some b!"v  5  5  5  1\np  1\np  1\np  1\n" ∧
    (match (Obj.parse debug b!"v  5  5  5  1\np  1\np  1\np  1\n" : Out ErrorKind (ObjectSet Bytes)) with
      | .ok r => r.objects.map Object.element_set == [[.Point (.V 0), .Point (.V 0), .Point (.V 0)]]
      | _ => false) = true := by decide +kernel

example : ∃ r : ObjectSet NumText, Obj.parse debug sample = .ok r ∧
    ∃ o ∈ r.objects, o.element_set ≠ [] ∧ o.vertex_set ≠ [] := by
  have h : (match (Obj.parse debug sample : Out ErrorKind (ObjectSet NumText)) with
      | .ok r => r.objects.any fun o => !o.element_set.isEmpty && !o.vertex_set.isEmpty
      | _ => false) = true := by decide +kernel
  split at h
  · next r hr =>
    refine ⟨r, hr, ?_⟩
    obtain ⟨o, ho, h1⟩ := List.any_eq_true.mp h
    refine ⟨o, ho, ?_⟩
    simp only [Bool.and_eq_true, Bool.not_eq_true', List.isEmpty_eq_false_iff] at h1
    exact h1
  · exact absurd h (by simp)

/-! ## Displaying does not panic -/

omit [FloatSem F] in
theorem compose_set_some {T : Type} {f : T → Option Bytes} {set : List T} (h : ∀ x ∈ set, (f x).isSome = true)
    (name : Bytes) : (compose_set f set name).isSome = true := by
  unfold compose_set
  cases set with
  | nil => rfl
  | cons a l =>
    obtain ⟨x, hx⟩ := Option.isSome_iff_exists.mp (h a (by simp))
    obtain ⟨y, hy⟩ := Option.isSome_iff_exists.mp (h _ (List.getLast_mem (by simp : a :: l ≠ [])))
    simp only [hx, hy]
    rfl

omit [FloatSem F] in
theorem compose_some [FloatShow F] {o : Object F} (h : ∀ e ∈ o.element_set, (e.display cfg).isSome = true) :
    (compose cfg o).isSome = true := by
  unfold compose
  have k : ∀ {T : Type} (f : T → Bytes) (set : List T) (name : Bytes),
      ∃ x, compose_set (some ∘ f) set name = some x := fun f set name =>
    Option.isSome_iff_exists.mp (compose_set_some (by simp) name)
  obtain ⟨x1, h1⟩ := k Vertex.display o.vertex_set b!"vertex"
  obtain ⟨x2, h2⟩ := k TextureVertex.display o.texture_vertex_set b!"texture vertex"
  obtain ⟨x3, h3⟩ := k NormalVertex.display o.normal_vertex_set b!"normal vertex"
  obtain ⟨x4, h4⟩ := k Group.display o.group_set b!"group"
  obtain ⟨x5, h5⟩ := k SmoothingGroup.display o.smoothing_group_set b!"smoothing group"
  obtain ⟨x6, h6⟩ := Option.isSome_iff_exists.mp (compose_set_some h b!"element")
  rw [h1, h2, h3, h4, h5, h6]
  rfl

/-- **C48** Displaying a successfully parsed object set never panics, in any build; nor does
displaying any object, element or index of it. -/
theorem C48_display_total [FloatShow F] (hlen : input.length < 2 ^ 63) {r : ObjectSet F}
    (h : Obj.parse cfg input = .ok r) (cfg' : Cfg) :
    (r.display cfg').isSome = true ∧ ∀ o ∈ r.objects, (o.display cfg').isSome = true ∧
      ∀ e ∈ o.element_set, (e.display cfg').isSome = true ∧
        ∀ x ∈ indices e, (x.display cfg').isSome = true := by
  have he : ∀ o ∈ r.objects, ∀ e ∈ o.element_set, (e.display cfg').isSome = true := by
    intro o ho e he
    rw [display_element (good_elements hlen h ho he) (small_lists hlen h ho)]
    rfl
  refine ⟨?_, fun o ho => ⟨compose_some (he o ho), fun e hm => ⟨he o ho e hm, fun x hx => ?_⟩⟩⟩
  · unfold ObjectSet.display
    have : ∀ (os : List (Object F)) (s : Bytes), (∀ o ∈ os, (compose cfg' o).isSome = true) →
        ∃ t, compose_all cfg' os s = some t := by
      intro os
      induction os with
      | nil => exact fun s _ => ⟨s, rfl⟩
      | cons o os ih =>
        intro s hs
        obtain ⟨x, hx⟩ := Option.isSome_iff_exists.mp (hs o (by simp))
        obtain ⟨t, ht⟩ := ih (s ++ x ++ b!"\n") fun o ho => hs o (by simp [ho])
        refine ⟨t, ?_⟩
        rw [compose_all, hx]
        exact ht
    obtain ⟨t, ht⟩ := this r.objects b!"ObjectSet {\n" fun o ho => compose_some (he o ho)
    rw [ht]
    rfl
  · rw [display_ref ((C36_some_iff o x).mp ((good_elements hlen h ho hm).exist x hx)) (small_lists hlen h ho)]
    rfl

/-! ## Parse errors -/

omit [FloatSem F] in
theorem digits_prefix {a b : Bytes} {x y : Bytes} (ha : ∀ c ∈ a, isDigit c = true)
    (hb : ∀ c ∈ b, isDigit c = true) (h : a ++ 58 :: x = b ++ 58 :: y) : a = b ∧ x = y := by
  induction a generalizing b with
  | nil =>
    cases b with
    | nil => simpa using h
    | cons c b =>
      simp only [List.nil_append, List.cons_append, List.cons.injEq] at h
      have := hb c (by simp)
      rw [← h.1] at this
      exact absurd this (by decide)
  | cons c a ih =>
    cases b with
    | nil =>
      simp only [List.nil_append, List.cons_append, List.cons.injEq] at h
      have := ha c (by simp)
      rw [h.1] at this
      exact absurd this (by decide)
    | cons d b =>
      simp only [List.cons_append, List.cons.injEq] at h
      obtain ⟨h1, h2⟩ := ih (fun c hc => ha c (by simp [hc])) (fun c hc => hb c (by simp [hc])) h.2
      exact ⟨by rw [h.1, h1], h2⟩

omit [FloatSem F] in
theorem showNat_injective {n m : Nat} (h : showNat n = showNat m) : n = m := by
  rw [← (showNat_spec n).2.2, h, (showNat_spec m).2.2]

/-- **C49** The displayed text of a parse error determines its line number and its message. -/
theorem C49_error_text {K : Type} (e e' : ParseError K) (h : e.display = e'.display) :
    e.line_number = e'.line_number ∧ e.message = e'.message := by
  unfold ParseError.display at h
  simp only [List.append_assoc] at h
  have h := List.append_cancel_left h
  have := digits_prefix (showNat_spec _).2.1 (showNat_spec _).2.1 h
  exact ⟨showNat_injective this.1, by simpa using this.2⟩

omit [FloatSem F] in
/-- **C49** The displayed text of a parse error: a phrase, the line number in decimal, the message. -/
theorem C49_error_form {K : Type} (e : ParseError K) : ∃ digits, digits ≠ [] ∧ (∀ c ∈ digits, 48 ≤ c.toNat ∧ c.toNat ≤ 57) ∧
    digits.foldl (fun n c => 10 * n + (c.toNat - 48)) 0 = e.line_number ∧
    e.display = b!"Parse error at line " ++ digits ++ b!": " ++ e.message := by
  obtain ⟨h1, h2, h3⟩ := showNat_spec e.line_number
  exact ⟨showNat e.line_number, h1, fun c hc => by simpa [isDigit] using h2 c hc, h3, rfl⟩

example : (⟨12, ErrorKind.EndOfFile, b!"oops"⟩ : ParseError ErrorKind).display =
    b!"Parse error at line 12: oops" := by decide +kernel

/-! ## Smoothing groups -/

/-- **C42** Displaying a smoothing group and reading it with an `s` statement gives it back,
after those already read. -/
theorem C42_read_back (g : SmoothingGroup) (h : g.number ≤ usizeMax) (gs : List SmoothingGroup) :
    (parse_smoothing_group gs (Parser.new (b!"s " ++ g.display))).1 = .ok (gs ++ [g]) := by
  obtain ⟨n⟩ := g
  have hw : Word (SmoothingGroup.display ⟨n⟩) := by
    unfold SmoothingGroup.display
    split
    · unfold Word; decide
    · exact word_showNat _
  have htok : tokens (b!"s " ++ SmoothingGroup.display ⟨n⟩) = [b!"s", SmoothingGroup.display ⟨n⟩] := by
    have h1 := tokens_spaced (ws := [SmoothingGroup.display ⟨n⟩]) (by simpa using hw)
    rw [sp1] at h1
    have h2 := tokens_token_blank (t := b!"s") (.inl (by unfold Word; decide)) (SmoothingGroup.display ⟨n⟩)
    rw [h1] at h2
    exact h2
  have hy : Yields (parse_smoothing_group gs) [b!"s", SmoothingGroup.display ⟨n⟩] (.ok (gs ++ [⟨n⟩])) [] := by
    unfold parse_smoothing_group
    refine Yields.bind (expect_tag_cons _ _) ?_
    refine Yields.bind (Yields.next_cons _ _) ?_
    unfold SmoothingGroup.display
    dsimp only
    by_cases h0 : n = 0
    · subst h0
      exact Yields.pure _ _
    · rw [if_neg h0]
      have hne : showNat n ≠ b!"off" := by
        intro hc
        have h1 := (showNat_spec n).2.1 111 (by rw [hc]; decide)
        exact absurd h1 (by decide)
      rw [if_neg hne, parseUsize_showNat h]
      exact Yields.pure _ _
  rw [← htok] at hy
  exact run_text (sim_parse_smoothing_group holds_bisim.symm _) hy

/-- **C42** Only 0 is displayed as `off`. -/
theorem C42_off (g : SmoothingGroup) : g.display = b!"off" ↔ g.number = 0 := by
  obtain ⟨n⟩ := g
  unfold SmoothingGroup.display
  dsimp only
  by_cases h0 : n = 0
  · simp [h0]
  · rw [if_neg h0]
    simp only [h0, iff_false]
    intro hc
    have h1 := (showNat_spec n).2.1 111 (by rw [hc]; decide)
    exact absurd h1 (by decide)

/-- **C42** Different smoothing groups are displayed differently. -/
theorem C42_injective (g g' : SmoothingGroup) (h : g.number ≤ usizeMax) (h' : g'.number ≤ usizeMax)
    (he : g.display = g'.display) : g = g' := by
  have h1 := C42_read_back g h []
  rw [he, C42_read_back g' h' []] at h1
  simpa using h1.symm

example : (⟨18446744073709551615⟩ : SmoothingGroup).display = b!"18446744073709551615" ∧
    (parse_smoothing_group [⟨3⟩] (Parser.new b!"s 18446744073709551615")).1 =
      .ok [⟨3⟩, ⟨18446744073709551615⟩] := by decide +kernel

end Verif.Props
