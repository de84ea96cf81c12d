import Verif.Props.Debug
import Verif.Props.Named

/-!
# Property C103: the strings in a result are strings of characters

The lexer makes its tokens with `from_utf8_unchecked`.  For a text of characters every name in a result and every
message of an error is the encoding of characters, and so the `Debug` texts of two results are equal only if the
results are (C102).
-/

namespace Verif.Props

open Verif Verif.Spec Verif.Debug

theorem utf8_nil : Utf8 [] := ⟨[], rfl⟩

theorem utf8_append {a b : Bytes} (ha : Utf8 a) (hb : Utf8 b) : Utf8 (a ++ b) := by
  obtain ⟨s, rfl⟩ := ha
  obtain ⟨t, rfl⟩ := hb
  exact ⟨s ++ t, by simp [encode]⟩

theorem utf8_ascii {b : Bytes} (h : ∀ c ∈ b, c < 128) : Utf8 b := by
  induction b with
  | nil => exact utf8_nil
  | cons c b ih =>
    have hc : c.toNat < 128 := UInt8.lt_iff_toNat_lt.mp (h c List.mem_cons_self)
    refine utf8_append (a := [c]) ⟨[Char.ofNat c.toNat], ?_⟩ (ih fun x hx => h x (List.mem_cons_of_mem _ hx))
    have e : (Char.ofNat c.toNat).val.toNat = c.toNat := ofNat_byte c
    simp only [encode, List.flatMap_cons, List.flatMap_nil, List.append_nil]
    rw [encodeChar_low (by rw [e]; exact hc), e]
    simp

theorem utf8_tokens {s : List Char} : ∀ t ∈ tokens (encode s), Utf8 t := by
  intro t ht
  rw [tokens_encode] at ht
  obtain ⟨w, -, rfl⟩ := List.mem_map.mp ht
  exact ⟨w, rfl⟩

theorem utf8_showNat (n : Nat) : Utf8 (showNat n) :=
  utf8_ascii fun c hc => UInt8.lt_of_le_of_lt (F64.star_showNat n c hc).2 (by decide)

theorem utf8_showInt (i : Int) : Utf8 (showInt i) := by
  unfold showInt
  split
  · exact utf8_append (a := b!"-") (utf8_ascii (by decide)) (utf8_showNat _)
  · exact utf8_showNat _

theorem splitByte_word {x : UInt8} (w r : Bytes) (h : ∀ c ∈ w, c ≠ x) :
    ∃ q qs, splitByte x r = q :: qs ∧ splitByte x (w ++ r) = (w ++ q) :: qs := by
  induction w with
  | nil =>
    cases e : splitByte x r with
    | nil =>
      exfalso
      cases r with
      | nil => cases e
      | cons c r =>
        unfold splitByte at e
        split at e
        · cases e
        · split at e <;> cases e
    | cons q qs => exact ⟨q, qs, rfl, e⟩
  | cons c w ih =>
    obtain ⟨q, qs, e1, e2⟩ := ih fun d hd => h d (List.mem_cons_of_mem _ hd)
    refine ⟨q, qs, e1, ?_⟩
    rw [List.cons_append, splitByte, if_neg (h c List.mem_cons_self), e2]
    rfl

/-- Splitting at an ASCII character does not split the others. -/
theorem utf8_pieces {t : Bytes} (h : Utf8 t) : ∀ p ∈ Spec.Obj.pieces t, Utf8 p := by
  obtain ⟨s, rfl⟩ := h
  unfold Spec.Obj.pieces
  induction s with
  | nil => intro p hp; rw [List.mem_singleton.mp hp]; exact utf8_nil
  | cons c s ih =>
    have e : encode (c :: s) = String.utf8EncodeChar c ++ encode s := by simp [encode]
    rw [e]
    by_cases hc : String.utf8EncodeChar c = [47]
    · rw [hc]
      intro p hp
      rw [List.singleton_append, splitByte, if_pos rfl] at hp
      rcases List.mem_cons.mp hp with rfl | hp
      · exact utf8_nil
      · exact ih p hp
    · have hb : ∀ b ∈ String.utf8EncodeChar c, b ≠ 47 := by
        intro b hb
        by_cases hl : c.val.toNat < 128
        · rw [encodeChar_low hl] at hb hc
          rw [List.mem_singleton.mp hb]
          intro e
          exact hc (by rw [e])
        · have := encodeChar_high (Nat.le_of_not_lt hl) b hb
          rintro rfl
          revert this
          decide
      obtain ⟨q, qs, e1, e2⟩ := splitByte_word _ (encode s) hb
      rw [e2]
      intro p hp
      rcases List.mem_cons.mp hp with rfl | hp
      · exact utf8_append ⟨[c], by simp [encode]⟩ (ih q (by rw [e1]; exact List.mem_cons_self))
      · exact ih p (by rw [e1]; exact List.mem_cons_of_mem _ hp)

theorem utf8_piece {t : Bytes} (h : Utf8 t) (i : Nat) : Utf8 (Spec.Obj.piece t i) := by
  unfold Spec.Obj.piece
  cases e : (Spec.Obj.pieces t)[i]? with
  | none => exact utf8_nil
  | some p => exact utf8_pieces h p (List.mem_of_getElem? e)

/-! ## Messages -/

section
open Spec.Obj Verif.Obj

theorem utf8_numErr {cfg lo hi t k m} (ht : Utf8 t) (h : NumErr cfg lo hi t k m) : Utf8 m := by
  cases h with
  | notInt => exact utf8_append (utf8_append (utf8_ascii (by decide)) ht) (utf8_ascii (by decide))
  | range =>
    exact utf8_append (utf8_append (utf8_append (utf8_append (utf8_append (utf8_append (utf8_ascii (by decide)) (utf8_showNat _))
      (utf8_ascii (by decide))) (utf8_showNat _)) (utf8_ascii (by decide))) (utf8_showInt _)) (utf8_ascii (by decide))

theorem utf8_refErr {cfg lo hi t k m} (ht : Utf8 t) (h : RefErr cfg lo hi t k m) : Utf8 m := by
  cases h with
  | v _ h => exact utf8_numErr (utf8_piece ht 0) h
  | vt _ _ h => exact utf8_numErr (utf8_piece ht 1) h
  | vn _ _ _ h => exact utf8_numErr (utf8_piece ht 2) h
  | shape => exact utf8_append (utf8_append (utf8_ascii (by decide)) ht) (utf8_ascii (by decide))

theorem utf8_stmtErr {cfg lo hi toks k m rest} (ht : ∀ t ∈ toks, Utf8 t) (h : StmtErr cfg lo hi toks k m rest) : Utf8 m := by
  have word : ∀ {a b t : Bytes}, (∀ c ∈ a, c < 128) → (∀ c ∈ b, c < 128) → Utf8 t → Utf8 (a ++ t ++ b) := fun ha hb h =>
    utf8_append (utf8_append (utf8_ascii ha) h) (utf8_ascii hb)
  cases h with
  | v_eof => exact utf8_ascii (by decide)
  | v_bad => exact word (by decide) (by decide) (ht _ (by simp))
  | vt_eof => exact utf8_ascii (by decide)
  | vt_bad => exact word (by decide) (by decide) (ht _ (by simp))
  | vn_eof => exact utf8_ascii (by decide)
  | vn_bad => exact word (by decide) (by decide) (ht _ (by simp))
  | s_eof => exact utf8_ascii (by decide)
  | s_bad => exact word (by decide +kernel) (by decide) (ht _ (by simp))
  | usemtl_eof => exact utf8_ascii (by decide)
  | p_eof => exact utf8_ascii (by decide)
  | p_bad _ h => exact utf8_numErr (ht _ (by simp)) h
  | l_eof => exact utf8_ascii (by decide)
  | l_bad _ _ h => exact utf8_refErr (ht _ (by simp)) h
  | l_mixed => exact utf8_ascii (by decide)
  | f_few => exact utf8_ascii (by decide)
  | f_mixed => exact utf8_ascii (by decide)
  | unknown => exact word (by decide) (by decide) (ht _ (by simp))

theorem stmt_later {cfg lo hi it toks rest} (h : Stmt cfg lo hi it toks rest) : ∀ t ∈ rest, t ∈ toks := by
  obtain ⟨pre, rfl⟩ := stmt_word h
  intro t ht
  simp [ht]

theorem utf8_bodyErr {cfg lo hi toks k m rest} (h : BodyErr cfg lo hi toks k m rest) (ht : ∀ t ∈ toks, Utf8 t) : Utf8 m := by
  induction h with
  | here h => exact utf8_stmtErr ht h
  | blank _ ih => exact ih fun t h => ht t (List.mem_cons_of_mem _ h)
  | later h _ ih => exact ih fun t h' => ht t (stmt_later h t h')

theorem header_later {toks name rest} (h : Header toks name rest) : ∀ t ∈ rest, t ∈ toks := by
  cases h with
  | implicit => exact fun t ht => ht
  | named => intro t ht; simp [ht]

theorem body_later {cfg lo hi items toks rest} (h : Body cfg lo hi items toks rest) : ∀ t ∈ rest, t ∈ toks := by
  obtain ⟨pre, rfl, -⟩ := Verif.Spec.Obj.body_words h
  intro t ht
  simp [ht]

theorem utf8_objectsErr {cfg lo toks k m rest} (h : ObjectsErr cfg lo toks k m rest) (ht : ∀ t ∈ toks, Utf8 t) : Utf8 m := by
  induction h with
  | header h =>
    cases h with
    | no_name => exact utf8_ascii (by decide)
    | no_line => exact utf8_ascii (by decide)
    | junk => exact utf8_append (utf8_append (utf8_ascii (by decide)) (ht _ (by simp))) (utf8_ascii (by decide))
  | body h1 h2 => exact utf8_bodyErr h2 fun t h => ht t (header_later h1 t h)
  | later h1 h2 _ _ ih => exact ih fun t h => ht t (header_later h1 t (body_later h2 t h))

theorem libs_tokens {toks libs rest} (h : Libs toks libs rest) : (∀ t ∈ rest, t ∈ toks) ∧ ∀ t ∈ libs, t ∈ toks := by
  induction h with
  | done => exact ⟨fun t h => h, fun t h => by cases h⟩
  | blank _ ih => exact ⟨fun t h => List.mem_cons_of_mem _ (ih.1 t h), fun t h => List.mem_cons_of_mem _ (ih.2 t h)⟩
  | @line names mid toks libs rest _ h _ ih =>
    have hm : ∀ t ∈ toks, t ∈ mid := by
      obtain ⟨pre, rfl⟩ := endLine_split h
      intro t ht
      simp [ht]
    refine ⟨fun t h => by simp [hm t (ih.1 t h)], fun t h => ?_⟩
    rcases List.mem_append.mp h with h | h
    · simp [h]
    · simp [hm t (ih.2 t h)]

/-! ## Names -/

/-- The names in a statement. -/
def itemNames : Item → List Bytes
  | .g names => names
  | .usemtl name => [name]
  | _ => []

theorem stmt_names {cfg lo hi it toks rest} (h : Stmt cfg lo hi it toks rest) : ∀ n ∈ itemNames it, n ∈ toks := by
  cases h with
  | g => intro n hn; simp only [itemNames] at hn; simp [hn]
  | usemtl => intro n hn; simp only [itemNames, List.mem_singleton] at hn; simp [hn]
  | _ => intro n hn; cases hn

theorem body_names {cfg lo hi items toks rest} (h : Body cfg lo hi items toks rest) :
    ∀ it ∈ items, ∀ n ∈ itemNames it, n ∈ toks := by
  induction h with
  | done => intro it h; cases h
  | blank _ ih => exact fun it h n hn => List.mem_cons_of_mem _ (ih it h n hn)
  | stmt h _ ih =>
    intro it hit n hn
    rcases List.mem_cons.mp hit with rfl | hit
    · exact stmt_names h n hn
    · exact stmt_later h n (ih it hit n hn)

theorem objects_names {cfg lo objs toks} (h : Objects cfg lo objs toks) :
    ∀ o ∈ objs, (o.name = [] ∨ o.name ∈ toks) ∧ ∀ it ∈ o.items, ∀ n ∈ itemNames it, n ∈ toks := by
  induction h with
  | done => intro o h; cases h
  | obj h1 h2 _ _ ih =>
    intro o ho
    rcases List.mem_cons.mp ho with rfl | ho
    · refine ⟨?_, fun it hit n hn => header_later h1 n (body_names h2 it hit n hn)⟩
      cases h1 with
      | implicit => exact .inl rfl
      | named => exact .inr (by simp)
    · obtain ⟨i1, i2⟩ := ih o ho
      have sub := fun t h => header_later h1 t (body_later h2 t h)
      exact ⟨i1.imp_right (sub _), fun it hit n hn => sub n (i2 it hit n hn)⟩

variable {F : Type} [FloatSem F]

/-- The names an object under construction holds. -/
def accNames (a : Acc F) : List Bytes :=
  a.groups.map Group.name ++ (a.geometries.filterMap Geometry.material_name ++ a.material.toList)

theorem step_names (lo : Counts) (a : Acc F) (it : Item) :
    ∀ n ∈ accNames (a.step lo it), n ∈ accNames a ∨ n ∈ itemNames it ∨ n = b!"default" := by
  have element : ∀ es : List Element, ∀ n ∈ accNames (a.defaults.addElements es), n ∈ accNames a ∨ n = b!"default" := by
    intro es n hn
    simp only [accNames, Acc.addElements, Acc.defaults, List.mem_append] at hn ⊢
    split at hn <;> split at hn <;> simp_all <;> (rcases hn with h | h | h <;> simp [h])
  intro n hn
  cases it with
  | g names =>
    simp only [accNames, Acc.step, itemNames, List.map_append, List.mem_append, List.map_map] at hn ⊢
    have e : (Verif.Obj.Group.name ∘ Verif.Obj.Group.mk : Bytes → Bytes) = id := rfl
    rw [e, List.map_id] at hn
    tauto
  | usemtl name =>
    simp only [accNames, Acc.step, itemNames, List.mem_append] at hn ⊢
    split at hn <;> simp only [List.filterMap_append, List.mem_append, List.mem_filterMap, List.mem_singleton, Option.mem_toList,
      Option.some.injEq] at hn ⊢
    · rcases hn with hn | hn | hn
      · exact .inl (.inl hn)
      · exact .inl (.inr (.inl hn))
      · exact .inr (.inl hn.symm)
    · rcases hn with hn | (hn | ⟨g, rfl, hn⟩) | hn
      · exact .inl (.inl hn)
      · exact .inl (.inr (.inl hn))
      · exact .inl (.inr (.inr hn))
      · exact .inr (.inl hn.symm)
  | p is => exact (element _ n hn).imp_right .inr
  | l is => exact (element _ n hn).imp_right .inr
  | f is => exact (element _ n hn).imp_right .inr
  | _ => exact .inl hn

theorem steps_names (lo : Counts) (items : List Item) (a : Acc F) :
    ∀ n ∈ accNames (items.foldl (Acc.step lo) a), n ∈ accNames a ∨ (∃ it ∈ items, n ∈ itemNames it) ∨ n = b!"default" := by
  induction items generalizing a with
  | nil => exact fun n h => .inl h
  | cons it items ih =>
    intro n hn
    rcases ih _ n hn with h | ⟨it', h, h'⟩ | h
    · rcases step_names lo a it n h with h | h | h
      · exact .inl h
      · exact .inr (.inl ⟨it, List.mem_cons_self, h⟩)
      · exact .inr (.inr h)
    · exact .inr (.inl ⟨it', List.mem_cons_of_mem _ h, h'⟩)
    · exact .inr (.inr h)

theorem meaning_names (lo : Counts) (o : ObjAst) : ∀ n ∈ objectStrings (objMeaning lo o : Object F),
    n = o.name ∨ (∃ it ∈ o.items, n ∈ itemNames it) ∨ n = b!"default" := by
  intro n hn
  rcases List.mem_cons.mp hn with rfl | hn
  · exact .inl rfl
  · right
    have : n ∈ accNames (o.items.foldl (Acc.step lo) ({} : Acc F)) := by
      simp only [objMeaning, List.filterMap_append, List.mem_append] at hn
      simp only [accNames, List.mem_append]
      rcases hn with hn | hn | hn
      · exact .inl hn
      · exact .inr (.inl hn)
      · obtain ⟨g, hg, hn⟩ := List.mem_filterMap.mp hn
        rw [List.mem_singleton.mp hg] at hn
        exact .inr (.inr (Option.mem_toList.mpr hn))
    rcases steps_names lo o.items {} n this with h | h
    · simp [accNames] at h
    · exact h

theorem objectsMeaning_mem (lo : Counts) (objs : List ObjAst) : ∀ x ∈ (objectsMeaning lo objs : List (Object F)),
    ∃ lo', ∃ o ∈ objs, x = objMeaning lo' o := by
  induction objs generalizing lo with
  | nil => intro x h; cases h
  | cons o objs ih =>
    intro x hx
    rcases List.mem_cons.mp hx with rfl | hx
    · exact ⟨lo, o, List.mem_cons_self, rfl⟩
    · obtain ⟨lo', o', h, e⟩ := ih _ x hx
      exact ⟨lo', o', List.mem_cons_of_mem _ h, e⟩

/-- **C103** Every name in a result of the OBJ parser is a token of the text, apart from the empty name of an object
without one and the name of the default group. -/
theorem C103_objects {cfg : Cfg} {input : Bytes} (hlen : input.length < 2 ^ 63) {r : ObjectSet F}
    (h : Verif.Obj.parse cfg input = .ok r) : ∀ b ∈ setStrings r, b ∈ tokens input ∨ b = [] ∨ b = b!"default" := by
  obtain ⟨file, ⟨rest, h1, h2⟩, rfl⟩ := (parse_ok_iff hlen).mp h
  intro b hb
  obtain ⟨s1, s2⟩ := libs_tokens h1
  rcases List.mem_append.mp hb with hb | hb
  · exact .inl (s2 b hb)
  · obtain ⟨x, hx, hb⟩ := List.mem_flatMap.mp hb
    obtain ⟨lo, o, ho, rfl⟩ := objectsMeaning_mem {} file.objects x hx
    obtain ⟨n1, n2⟩ := objects_names h2 o ho
    rcases meaning_names lo o b hb with rfl | ⟨it, hit, hb⟩ | hb
    · rcases n1 with h | h
      · exact .inr (.inl h)
      · exact .inl (s1 _ h)
    · exact .inl (s1 _ (n2 it hit b hb))
    · exact .inr (.inr hb)

/-- **C103** Every string in a result of the OBJ parser on a text of characters is a string of characters. -/
theorem C103_objects_utf8 {cfg : Cfg} {s : List Char} (hlen : (encode s).length < 2 ^ 63) {r : ObjectSet F}
    (h : Verif.Obj.parse cfg (encode s) = .ok r) : ∀ b ∈ setStrings r, Utf8 b := by
  intro b hb
  rcases C103_objects hlen h b hb with h | rfl | rfl
  · exact utf8_tokens b h
  · exact utf8_nil
  · exact utf8_ascii (by decide)

/-- **C103** The message of an error of the OBJ parser on a text of characters is a string of characters. -/
theorem C103_obj_message {cfg : Cfg} {s : List Char} (hlen : (encode s).length < 2 ^ 63) {e : ParseError ErrorKind}
    (h : (Verif.Obj.parse cfg (encode s) : Out ErrorKind (ObjectSet F)) = .err e) : Utf8 e.message := by
  obtain ⟨rest, ⟨libs, toks, h1, h2⟩, -⟩ := (parse_err_iff hlen).mp h
  exact utf8_objectsErr h2 fun t ht => utf8_tokens t ((libs_tokens h1).1 t ht)

end

section
open Spec.Mtl Verif.Mtl

theorem mtl_stmt_later {it toks rest} (h : Spec.Mtl.Stmt it toks rest) : ∀ t ∈ rest, t ∈ toks := by
  cases h <;> (intro t ht; simp [ht])

theorem mtl_body_later {items toks rest} (h : Spec.Mtl.Body items toks rest) : ∀ t ∈ rest, t ∈ toks := by
  induction h with
  | done => exact fun t h => h
  | blank _ ih => exact fun t h => List.mem_cons_of_mem _ (ih t h)
  | stmt h _ ih => exact fun t ht => mtl_stmt_later h t (ih t ht)

theorem utf8_mtl_stmtErr {toks k m rest} (ht : ∀ t ∈ toks, Utf8 t) (h : Spec.Mtl.StmtErr toks k m rest) : Utf8 m := by
  have pre : ∀ {a t : Bytes}, (∀ c ∈ a, c < 128) → Utf8 t → Utf8 (a ++ t) := fun ha h => utf8_append (utf8_ascii ha) h
  cases h with
  | color_eof => exact utf8_ascii (by decide)
  | color_bad => exact pre (by decide) (ht _ (by simp))
  | num_eof => exact utf8_ascii (by decide)
  | num_bad => exact pre (by decide) (ht _ (by simp))
  | illum_eof => exact utf8_ascii (by decide)
  | illum_bad => exact pre (by decide) (ht _ (by simp))
  | illum_unknown => exact utf8_append (pre (by decide) (utf8_showNat _)) (utf8_ascii (by decide))
  | map_eof => exact utf8_ascii (by decide)
  | unknown => exact utf8_append (pre (by decide) (ht _ (by simp))) (utf8_ascii (by decide))

theorem utf8_mtl_bodyErr {toks k m rest} (h : Spec.Mtl.BodyErr toks k m rest) (ht : ∀ t ∈ toks, Utf8 t) : Utf8 m := by
  induction h with
  | here h => exact utf8_mtl_stmtErr ht h
  | blank _ ih => exact ih fun t h => ht t (List.mem_cons_of_mem _ h)
  | later h _ ih => exact ih fun t h' => ht t (mtl_stmt_later h t h')

theorem utf8_matsErr {toks k m rest} (h : MatsErr toks k m rest) (ht : ∀ t ∈ toks, Utf8 t) : Utf8 m := by
  induction h with
  | no_name => exact utf8_ascii (by decide)
  | body h => exact utf8_mtl_bodyErr h fun t h => ht t (by simp [h])
  | later h _ ih => exact ih fun t h' => ht t (by simp [mtl_body_later h t h'])

theorem utf8_mtl_fileErr {toks k m rest} (h : Spec.Mtl.FileErr toks k m rest) (ht : ∀ t ∈ toks, Utf8 t) : Utf8 m := by
  induction h with
  | blank _ ih => exact ih fun t h => ht t (List.mem_cons_of_mem _ h)
  | trailing => exact utf8_append (utf8_append (utf8_ascii (by decide)) (ht _ (by simp))) (utf8_ascii (by decide))
  | mats h => exact utf8_matsErr h ht

theorem mtl_body_names {items toks rest} (h : Spec.Mtl.Body items toks rest) :
    ∀ s n, Item.map s n ∈ items → n ∈ toks := by
  induction h with
  | done => intro s n h; cases h
  | blank _ ih => exact fun s n h => List.mem_cons_of_mem _ (ih s n h)
  | stmt h _ ih =>
    intro s n hn
    rcases List.mem_cons.mp hn with rfl | hn
    · cases h; simp
    · exact mtl_stmt_later h n (ih s n hn)

theorem mats_names {mats toks} (h : Mats mats toks) :
    ∀ m ∈ mats, m.name ∈ toks ∧ ∀ s n, Item.map s n ∈ m.items → n ∈ toks := by
  induction h with
  | done => intro m h; cases h
  | mat h _ ih =>
    intro m hm
    rcases List.mem_cons.mp hm with rfl | hm
    · exact ⟨by simp, fun s n hn => by simp [mtl_body_names h s n hn]⟩
    · obtain ⟨h1, h2⟩ := ih m hm
      exact ⟨by simp [mtl_body_later h _ h1], fun s n hn => by simp [mtl_body_later h _ (h2 s n hn)]⟩

theorem mtl_file_names {toks mats} (h : Spec.Mtl.FileOk toks mats) :
    ∀ m ∈ mats, m.name ∈ toks ∧ ∀ s n, Item.map s n ∈ m.items → n ∈ toks := by
  induction h with
  | blank _ ih =>
    exact fun m hm => ⟨List.mem_cons_of_mem _ (ih m hm).1, fun s n h => List.mem_cons_of_mem _ ((ih m hm).2 s n h)⟩
  | mats h => exact mats_names h

theorem last_map_mem {s : MapSlot} {items : List Spec.Mtl.Item} {n : Bytes} (h : last (Item.map? s) items = some n) :
    Item.map s n ∈ items := by
  obtain ⟨it, hit, e⟩ := List.mem_filterMap.mp (List.mem_of_getLast? h)
  unfold Item.map? at e
  split at e
  · split at e
    · rename_i hs
      cases e
      exact hs ▸ hit
    · cases e
  · cases e

variable {F : Type} [FloatSem F]

/-- **C103** Every name in a result of the MTL parser is a token of the text. -/
theorem C103_materials {input : Bytes} {r : MaterialSet F} (h : Verif.Mtl.parse input = .ok r) :
    ∀ b ∈ r.materials.flatMap materialStrings, b ∈ tokens input := by
  obtain ⟨mats, hf, rfl⟩ := Verif.Mtl.parse_ok_iff.mp h
  intro b hb
  obtain ⟨x, hx, hb⟩ := List.mem_flatMap.mp hb
  obtain ⟨m, hm, rfl⟩ := List.mem_map.mp hx
  obtain ⟨h1, h2⟩ := mtl_file_names hf m hm
  rcases List.mem_cons.mp hb with rfl | hb
  · exact h1
  · simp only [matMeaning, List.mem_filterMap, List.mem_cons, List.not_mem_nil, or_false, id_eq, exists_eq_or_imp, exists_eq_left] at hb
    rcases hb with hb | hb | hb | hb | hb | hb | hb | hb | hb <;> exact h2 _ _ (last_map_mem hb)

/-- **C103** Every string in a result of the MTL parser on a text of characters is a string of characters. -/
theorem C103_materials_utf8 {s : List Char} {r : MaterialSet F} (h : Verif.Mtl.parse (encode s) = .ok r) :
    ∀ b ∈ r.materials.flatMap materialStrings, Utf8 b := fun b hb => utf8_tokens b (C103_materials h b hb)

/-- **C103** The message of an error of the MTL parser on a text of characters is a string of characters. -/
theorem C103_mtl_message {s : List Char} {e : ParseError Verif.Mtl.ErrorKind}
    (h : (Verif.Mtl.parse (encode s) : Out Verif.Mtl.ErrorKind (MaterialSet F)) = .err e) : Utf8 e.message := by
  obtain ⟨rest, h, -⟩ := Verif.Mtl.parse_err_iff.mp h
  exact utf8_mtl_fileErr h utf8_tokens

end

/-- A text with characters beyond ASCII. -/
def accented : List Char := c!"mtllib é\no ∀\nv 0 0 0\nusemtl ü\np 1\n"

example : ∃ r : Obj.ObjectSet Bytes, Obj.parse debug (encode accented) = .ok r ∧
    setStrings r = [encode ['\u00e9'], encode ['\u2200'], b!"default", encode ['\u00fc']] :=
  ⟨⟨[[195, 169]], [⟨[226, 136, 128], [⟨b!"0", b!"0", b!"0", b!"1"⟩], [], [], [⟨b!"default"⟩], [⟨0⟩], [.Point (.V 0)],
    [⟨0, [0], 0⟩], [⟨some [195, 188], [0]⟩]⟩]⟩, by decide +kernel, by decide +kernel⟩

example : (Obj.parse debug (encode c!"v 0 0 0\nl 1//é 1") : Out _ (Obj.ObjectSet Bytes)) =
    .err ⟨2, .ExpectedInteger, b!"Expected an integer but got `" ++ encode ['\u00e9'] ++ b!"` instead."⟩ := by decide +kernel

/-! ## C102: the results of the parsers -/

section
variable {F : Type} [FloatSem F] [FloatDebug F] [LawfulDebug F]

/-- **C102** If the results of the OBJ parser for two texts have the same `Debug` text, they are the same. -/
theorem C102_obj_results (plain : Char → Bool) {cfg cfg' : Obj.Cfg} {s s' : List Char} (hlen : (encode s).length < 2 ^ 63)
    (hlen' : (encode s').length < 2 ^ 63) {r r' : Obj.ObjectSet F} (h : Obj.parse cfg (encode s) = .ok r)
    (h' : Obj.parse cfg' (encode s') = .ok r') (e : r.debug plain = r'.debug plain) : r = r' :=
  (code_set plain).injective (C103_objects_utf8 hlen h) (C103_objects_utf8 hlen' h') e

omit [FloatDebug F] [LawfulDebug F] in
/-- **C102** The same for errors of the OBJ parser. -/
theorem C102_obj_errors (plain : Char → Bool) {cfg cfg' : Obj.Cfg} {s s' : List Char} (hlen : (encode s).length < 2 ^ 63)
    (hlen' : (encode s').length < 2 ^ 63) {e e' : ParseError Obj.ErrorKind}
    (h : (Obj.parse cfg (encode s) : Out _ (Obj.ObjectSet F)) = .err e)
    (h' : (Obj.parse cfg' (encode s') : Out _ (Obj.ObjectSet F)) = .err e')
    (he : e.debug plain Obj.ErrorKind.debug = e'.debug plain Obj.ErrorKind.debug) : e = e' :=
  (code_error plain code_kind).injective (C103_obj_message hlen h) (C103_obj_message hlen' h') he

/-- **C102** The same for results of the MTL parser. -/
theorem C102_mtl_results (plain : Char → Bool) {s s' : List Char} {r r' : Mtl.MaterialSet F}
    (h : Mtl.parse (encode s) = .ok r) (h' : Mtl.parse (encode s') = .ok r') (e : r.debug plain = r'.debug plain) : r = r' :=
  (code_materials plain).injective (C103_materials_utf8 h) (C103_materials_utf8 h') e

omit [FloatDebug F] [LawfulDebug F] in
/-- **C102** The same for errors of the MTL parser. -/
theorem C102_mtl_errors (plain : Char → Bool) {s s' : List Char} {e e' : ParseError Mtl.ErrorKind}
    (h : (Mtl.parse (encode s) : Out _ (Mtl.MaterialSet F)) = .err e)
    (h' : (Mtl.parse (encode s') : Out _ (Mtl.MaterialSet F)) = .err e')
    (he : e.debug plain Mtl.ErrorKind.debug = e'.debug plain Mtl.ErrorKind.debug) : e = e' :=
  (code_error plain code_mtl_kind).injective (C103_mtl_message h) (C103_mtl_message h') he

end

end Verif.Props
