import Verif.Props.Split
import Verif.Props.Materials

/-!
# Property C79: exchanging statements of a material
-/

namespace Verif.Props

open Verif Verif.Mtl Verif.Spec Verif.Spec.Mtl

/-- The tokens are complete statements and line ends, nothing else. -/
inductive Lines : List Item → List Tok → Prop
  | done : Lines [] []
  | blank {its toks} : Lines its toks → Lines its (nl :: toks)
  | stmt {it its toks mid} : Stmt it toks mid → Lines its mid → Lines (it :: its) toks

/-- For every attribute, both lists of statements give it the same value, or neither says anything
about it. -/
structure SameValues (F : Type) [FloatSem F] (its its' : List Item) : Prop where
  color : ∀ s, last (Item.color? (F := F) s) its = last (Item.color? s) its'
  num : ∀ s, last (Item.num? (F := F) s) its = last (Item.num? s) its'
  illum : last Item.illum? its = last Item.illum? its'
  map : ∀ s, last (Item.map? s) its = last (Item.map? s) its'

/-- Errors on later lines are reported `n` lines further down. -/
def shiftAfter {K α : Type} (line n : Nat) : Out K α → Out K α
  | .err e => .err { e with line_number := if e.line_number ≤ line then e.line_number else e.line_number + n }
  | o => o

theorem last_append {α β : Type} (f : α → Option β) (a b : List α) : last f (a ++ b) = (last f b).or (last f a) := by
  simp only [last, List.filterMap_append, List.getLast?_append]

theorem last_middle {α β : Type} {f : α → Option β} {a a' : List α} (h : last f a = last f a') (pre post : List α) :
    last f (pre ++ (a ++ post)) = last f (pre ++ (a' ++ post)) := by
  simp only [last_append, h]

section
variable {F : Type} [FloatSem F]

theorem matMeaning_middle {its its' : List Item} (h : SameValues F its its') (name : Bytes) (pre post : List Item) :
    (matMeaning ⟨name, pre ++ (its ++ post)⟩ : Material F) = matMeaning ⟨name, pre ++ (its' ++ post)⟩ := by
  simp only [matMeaning, last_middle (h.color _), last_middle (h.num _), last_middle h.illum, last_middle (h.map _)]

theorem Lines.at {its toks} (h : Lines its toks) {T Y done name items}
    (hat : At T done name items (toks ++ nl :: Y)) : At T done name (items ++ its) Y := by
  induction h generalizing items with
  | done => simpa using At.blank hat
  | blank _ ih => exact ih (.blank hat)
  | stmt hs _ ih =>
    obtain ⟨body, last, rfl, -, h'⟩ := stmt_shape hs
    have := ih (.stmt hat (by simpa using h' _))
    simpa using this

/-- **C79** Inside a material, complete lines of statements can be exchanged for any others that give
every attribute the same value: the result is the same, and so is an error, except that its line moves
with the text after the exchanged lines. -/
theorem C79_exchange {a b x x' : Bytes} {its its' : List Item} {n : Nat} (ha : b!"newmtl" ∈ tokens a)
    (hx : Lines its (tokens x)) (hx' : Lines its' (tokens x')) (he : SameValues F its its')
    (hn : x'.count 10 = x.count 10 + n) :
    (Mtl.parse (a ++ 10 :: (x' ++ 10 :: b)) : Out ErrorKind (MaterialSet F)) =
      shiftAfter (a.count 10 + 2) n (Mtl.parse (a ++ 10 :: (x ++ 10 :: b))) := by
  have hna : nls (tokens a) = a.count 10 := nls_tokens a
  have hnx : nls (tokens x') = nls (tokens x) + n := by
    have h1 : nls (tokens x) = x.count 10 := nls_tokens x
    have h2 : nls (tokens x') = x'.count 10 := nls_tokens x'
    omega
  have et : ∀ x, tokens (a ++ 10 :: (x ++ 10 :: b)) = tokens a ++ nl :: (tokens x ++ nl :: tokens b) := by
    intro x
    simp only [tokens_append_nl]
  have hc : ∀ x, nls (tokens (a ++ 10 :: (x ++ 10 :: b))) = a.count 10 + nls (tokens x) + nls (tokens b) + 2 := by
    intro x
    rw [et, ← hna]
    simp only [nls, List.count_append, List.count_cons_self]
    omega
  -- an error behind the exchanged lines
  have behind : ∀ {k m rest}, rest <:+ tokens b → FileErr (tokens (a ++ 10 :: (x ++ 10 :: b))) k m rest →
      FileErr (tokens (a ++ 10 :: (x' ++ 10 :: b))) k m rest →
      (Mtl.parse (a ++ 10 :: (x' ++ 10 :: b)) : Out ErrorKind (MaterialSet F)) =
        shiftAfter (a.count 10 + 2) n (Mtl.parse (a ++ 10 :: (x ++ 10 :: b))) := by
    intro k m rest hs h1 h2
    have hl := nls_suffix hs
    rw [parse_err_of h1, parse_err_of h2, hc, hc, hnx]
    simp only [shiftAfter, Out.err.injEq, ParseError.mk.injEq, and_true]
    rw [if_neg (by omega)]
    omega
  rcases file_line (tokens a) with ⟨k, m, u, h⟩ | ⟨done, name, items, h⟩ | h
  · have h1 := h (tokens x ++ nl :: tokens b)
    have h2 := h (tokens x' ++ nl :: tokens b)
    rw [← et] at h1 h2
    rw [parse_err_of h1, parse_err_of h2, hc, hc, hnx]
    have e : ∀ x, nls (u ++ (tokens x ++ nl :: tokens b)) = nls u + nls (tokens x) + nls (tokens b) + 1 := by
      intro x
      simp only [nls, List.count_append, List.count_cons_self]
      omega
    rw [e, e, hnx]
    simp only [shiftAfter, Out.err.injEq, ParseError.mk.injEq, and_true]
    rw [if_pos (by omega)]
    omega
  · have h1 := hx.at (h (tokens x ++ nl :: tokens b))
    have h2 := hx'.at (h (tokens x' ++ nl :: tokens b))
    rw [← et] at h1 h2
    rcases body_total (tokens b) with ⟨items', rest, hb⟩ | ⟨k, m, rest, hb⟩
    · rcases mats_total (Mtl.body_end hb) with ⟨mats, hm⟩ | ⟨k, m, rest', hm⟩
      · rw [parse_ok_of (at_ok h1 hb hm), parse_ok_of (at_ok h2 hb hm)]
        simp only [shiftAfter, meaning, List.map_append, List.map_cons, List.append_assoc]
        rw [matMeaning_middle he name items items']
      · exact behind ((matsErr_suffix hm).trans (body_suffix hb)) (at_later h1 hb hm) (at_later h2 hb hm)
    · exact behind (bodyErr_suffix hb) (at_err h1 hb) (at_err h2 hb)
  · exact absurd (h _ ha) (by decide)

theorem lines_append {its its' toks toks'} (h : Lines its toks) (h' : Lines its' toks') :
    Lines (its ++ its') (toks ++ toks') := by
  induction h with
  | done => exact h'
  | blank _ ih => exact .blank ih
  | stmt hs _ ih =>
    obtain ⟨body, last, rfl, -, h1⟩ := stmt_shape hs
    refine .stmt ?_ ih
    simpa using h1 _

theorem lines_stmt {it toks} (h : Stmt it toks []) : Lines [it] toks := .stmt h .done

theorem last_cons {α β : Type} (f : α → Option β) (x : α) (l : List α) (h : f x = none ∨ (last f l).isSome) :
    last f (x :: l) = last f l := by
  have e := last_append f [x] l
  rw [List.singleton_append] at e
  rw [e]
  rcases h with h | h
  · rw [last_none (l := [x]) (by simpa using h), Option.or_none]
  · obtain ⟨y, hy⟩ := Option.isSome_iff_exists.mp h
    rw [hy]; rfl

/-- A statement can be dropped in front of another about the same attribute. -/
theorem sameValues_drop {x y : Item} {its : List Item} (hy : y ∈ its) (h : attr x = attr y) :
    SameValues F its (x :: its) := by
  have some_of : ∀ {β : Type} {f : Item → Option β}, (f y).isSome = true → (last f its).isSome = true := by
    intro β f hf
    obtain ⟨v, hv⟩ := Option.isSome_iff_exists.mp hf
    have : v ∈ its.filterMap f := List.mem_filterMap.mpr ⟨y, hy, hv⟩
    unfold last
    rw [List.getLast?_isSome]
    exact List.ne_nil_of_mem this
  refine ⟨fun s => (last_cons _ _ _ ?_).symm, fun s => (last_cons _ _ _ ?_).symm, (last_cons _ _ _ ?_).symm,
    fun s => (last_cons _ _ _ ?_).symm⟩
  · by_cases hx : attr x = .color s
    · exact .inr (some_of (by rw [h] at hx; cases y <;> simp_all [attr, Item.color?]))
    · exact .inl (color?_none hx)
  · by_cases hx : attr x = .num s
    · exact .inr (some_of (by rw [h] at hx; cases y <;> simp_all [attr, Item.num?]))
    · exact .inl (num?_none hx)
  · by_cases hx : attr x = .illum
    · exact .inr (some_of (by rw [h] at hx; cases y <;> simp_all [attr, Item.illum?]))
    · exact .inl (illum?_none hx)
  · by_cases hx : attr x = .map s
    · exact .inr (some_of (by rw [h] at hx; cases y <;> simp_all [attr, Item.map?]))
    · exact .inl (map?_none hx)

/-- **C79** A statement on a line of its own can be left out if a later line of the same material sets
the same attribute. -/
theorem C79_overridden {a b l mid : Bytes} {x y : Item} {its : List Item} (ha : b!"newmtl" ∈ tokens a)
    (hx : Stmt x (tokens l) []) (hmid : Lines its (tokens mid)) (hy : y ∈ its) (h : attr x = attr y) :
    (Mtl.parse (a ++ 10 :: (l ++ 10 :: (mid ++ 10 :: b))) : Out ErrorKind (MaterialSet F)) =
      shiftAfter (a.count 10 + 2) (l.count 10 + 1) (Mtl.parse (a ++ 10 :: (mid ++ 10 :: b))) := by
  have h1 : Lines ([x] ++ its) (tokens (l ++ 10 :: mid)) := by
    rw [tokens_append_nl]
    exact lines_append (lines_stmt hx) (.blank hmid)
  have := C79_exchange (F := F) (b := b) (n := l.count 10 + 1) ha hmid h1 (sameValues_drop hy h)
    (by simp only [List.count_append, List.count_cons_self]; omega)
  rw [← this]
  simp

/-- Two spellings of the same statement. -/
inductive Spelling (F : Type) [FloatSem F] : List Tok → List Tok → Prop
  /-- numbers with the same values -/
  | color {s : ColorSlot} {r g b r' g' b' : Tok} : (∀ t ∈ [r, g, b, r', g', b'], isFloat t = true) →
      (FloatSem.value r : F) = FloatSem.value r' → (FloatSem.value g : F) = FloatSem.value g' →
      (FloatSem.value b : F) = FloatSem.value b' → Spelling F [s.tag, r, g, b] [s.tag, r', g', b']
  | num {s : NumSlot} {x x' : Tok} : isFloat x = true → isFloat x' = true →
      (FloatSem.value x : F) = FloatSem.value x' → Spelling F [s.tag, x] [s.tag, x']
  /-- zeros and a plus sign in front of an illumination model -/
  | illum {d p p' : Bytes} : d ∈ [b!"0", b!"1", b!"2"] → Spells d p → Spells d p' →
      Spelling F [b!"illum", p] [b!"illum", p']
  /-- the two keywords of bump maps -/
  | bump {name : Tok} : Spelling F [b!"map_Bump", name] [b!"bump", name]

theorem spelling_lines {t t' : List Tok} (h : Spelling F t t') :
    ∃ it it', Stmt it t [] ∧ Stmt it' t' [] ∧ SameValues F [it] [it'] := by
  cases h with
  | @color s r g b r' g' b' hf h1 h2 h3 =>
    simp only [List.mem_cons, List.not_mem_nil, or_false, forall_eq_or_imp, forall_eq] at hf
    obtain ⟨f1, f2, f3, f4, f5, f6⟩ := hf
    refine ⟨_, _, .color f1 f2 f3, .color f4 f5 f6, ⟨fun s' => ?_, fun _ => rfl, rfl, fun _ => rfl⟩⟩
    simp [last, Item.color?, h1, h2, h3, List.filterMap_cons]
  | @num s x x' f1 f2 h1 =>
    refine ⟨_, _, .num f1, .num f2, ⟨fun _ => rfl, fun s' => ?_, rfl, fun _ => rfl⟩⟩
    simp [last, Item.num?, h1, List.filterMap_cons]
  | @illum d p p' hd h1 h2 =>
    have key : ∀ {d : Bytes}, d ∈ [b!"0", b!"1", b!"2"] → ∃ model, ∀ p, Spells d p → parseUsize p = some (illumNumber model) := by
      intro d hd
      have hp : ∀ d ∈ [b!"0", b!"1", b!"2"], ∃ model, parseUsize d = some (illumNumber model) := by
        intro d hd
        simp only [List.mem_cons, List.not_mem_nil, or_false] at hd
        rcases hd with rfl | rfl | rfl
        · exact ⟨.Ambient, by decide⟩
        · exact ⟨.AmbientDiffuse, by decide⟩
        · exact ⟨.AmbientDiffuseSpecular, by decide⟩
      obtain ⟨model, hm⟩ := hp d hd
      have hne : d ≠ [] := by rintro rfl; revert hd; decide
      have hdig : ∀ d ∈ [b!"0", b!"1", b!"2"], ∀ c ∈ d, 48 ≤ c ∧ c ≤ 57 := by decide
      refine ⟨model, fun p hs => ?_⟩
      rw [(spells_iff hne (hdig d hd) hs).2]
      exact ((spells_iff hne (hdig d hd) ⟨0, .inl rfl⟩).2 _).mp hm
    obtain ⟨model, hm⟩ := key hd
    exact ⟨_, _, .illum (hm p h1), .illum (hm p' h2), ⟨fun _ => rfl, fun _ => rfl, rfl, fun _ => rfl⟩⟩
  | bump => exact ⟨.map .bump _, .map .bump _, .map (by decide), .map (by decide), ⟨fun _ => rfl, fun _ => rfl, rfl, fun _ => rfl⟩⟩

theorem shiftAfter_zero {K α : Type} (line : Nat) (o : Out K α) : shiftAfter line 0 o = o := by
  cases o <;> simp [shiftAfter]

/-- **C79** Another spelling of a statement makes no difference at all. -/
theorem C79_spelling {a b l l' : Bytes} (ha : b!"newmtl" ∈ tokens a)
    (h : Spelling F (tokens l) (tokens l')) (hn : (10 : UInt8) ∉ l) (hn' : (10 : UInt8) ∉ l') :
    (Mtl.parse (a ++ 10 :: (l' ++ 10 :: b)) : Out ErrorKind (MaterialSet F)) =
      Mtl.parse (a ++ 10 :: (l ++ 10 :: b)) := by
  obtain ⟨it, it', h1, h2, hs⟩ := spelling_lines h
  rw [C79_exchange (n := 0) ha (lines_stmt h1) (lines_stmt h2) hs
    (by rw [List.count_eq_zero.mpr hn, List.count_eq_zero.mpr hn']), shiftAfter_zero]

end

/-- A color that is set twice, with another attribute between; an error behind moves, one in front does not. -/
example (b : Bytes) : (Mtl.parse (b!"newmtl m" ++ 10 :: (b!"Kd 1 1 1" ++ 10 :: (b!"Ns 5\nKd 2 2 2" ++ 10 :: b))) :
      Out ErrorKind (MaterialSet Bytes)) =
    shiftAfter 2 1 (Mtl.parse (b!"newmtl m" ++ 10 :: (b!"Ns 5\nKd 2 2 2" ++ 10 :: b))) := by
  have e1 : tokens b!"Kd 1 1 1" = [ColorSlot.diffuse.tag, b!"1", b!"1", b!"1"] := by decide +kernel
  have e2 : tokens b!"Ns 5\nKd 2 2 2" = NumSlot.exponent.tag :: b!"5" :: nl :: [ColorSlot.diffuse.tag, b!"2", b!"2", b!"2"] := by
    decide +kernel
  refine C79_overridden (x := .color .diffuse b!"1" b!"1" b!"1") (y := .color .diffuse b!"2" b!"2" b!"2")
    (its := [.num .exponent b!"5", .color .diffuse b!"2" b!"2" b!"2"]) (by decide +kernel) ?_ ?_ (by simp) rfl
  · rw [e1]; exact .color (by decide) (by decide) (by decide)
  · rw [e2]; exact .stmt (.num (by decide)) (.blank (.stmt (.color (by decide) (by decide) (by decide)) .done))

example : (Mtl.parse b!"newmtl m\nKd 1 1 1\nKd 2 2 2\nKq" : Out ErrorKind (MaterialSet Bytes)) =
      .err ⟨4, .ErrorParsingMaterial, b!"Could not parse the token `Kq`."⟩ ∧
    (Mtl.parse b!"newmtl m\nKd 2 2 2\nKq" : Out ErrorKind (MaterialSet Bytes)) =
      .err ⟨3, .ErrorParsingMaterial, b!"Could not parse the token `Kq`."⟩ := by decide +kernel

example (b : Bytes) : (Mtl.parse (b!"newmtl m" ++ 10 :: (b!"illum +001" ++ 10 :: b)) : Out ErrorKind (MaterialSet Bytes)) =
    Mtl.parse (b!"newmtl m" ++ 10 :: (b!"illum 1" ++ 10 :: b)) := by
  have e1 : tokens b!"illum +001" = [b!"illum", b!"+001"] := by decide +kernel
  have e2 : tokens b!"illum 1" = [b!"illum", b!"1"] := by decide +kernel
  refine C79_spelling (by decide +kernel) ?_ (by decide) (by decide)
  rw [e1, e2]
  exact .illum (d := b!"1") (by decide) ⟨0, .inl rfl⟩ ⟨2, .inr rfl⟩

end Verif.Props
