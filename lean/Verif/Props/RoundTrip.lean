import Verif.Props.Objects
import Verif.Proofs.Render
import Verif.Proofs.Digits
import Verif.Model.Display

/-!
# Properties C28, C34, C35, C36, C37, C42: writing and reading
-/

namespace Verif.Props

open Verif Verif.Obj Verif.Spec Verif.Spec.Obj

variable {F : Type} [FloatSem F] {cfg : Cfg} {input : Bytes}

/-! ## C28 -/

/-- **C28** A valid abstract file, written as text and parsed, gives what it denotes. -/
theorem C28_write_read {file : FileAst} (h : ValidFile file) (hlen : file.text.length < 2 ^ 63) :
    Obj.parse cfg file.text = .ok (meaning file : ObjectSet F) :=
  parse_ok_of hlen (file_text cfg h hlen)

theorem isToken_of_mem : ∀ t ∈ tokens input, IsToken t := fun _ h => token_clean h

theorem objects_validObjects {lo : Counts} {objs toks} (h : Objects cfg lo objs toks) (hb : BodyEnd toks)
    (ht : ∀ t ∈ toks, IsToken t) : ValidObjects lo objs := by
  induction h with
  | done => trivial
  | @obj lo name items objs toks mid rest hh hbody hn ho ih =>
    have hs := (body_suffix hbody).trans (header_suffix hh)
    refine ⟨?_, body_validItems hbody (fun t h => ht t ((header_suffix hh).subset h)), hn,
      ih (body_end hbody) fun t h => ht t (hs.subset h)⟩
    cases hh with
    | implicit h1 =>
      rcases hb with hb | hb
      · simp at hb
      · exact absurd (Option.some.inj hb) h1
    | named => exact ht _ (by simp)

/-- **C28** Conversely, the abstract file of any accepted text is valid, so it can be
written down again. -/
theorem C28_read_valid {file : FileAst} (h : FileOk cfg (tokens input) file) : ValidFile file := by
  obtain ⟨libs, objs⟩ := file
  obtain ⟨rest, hl, ho⟩ := h
  have hs := libs_suffix hl
  refine ⟨fun n hn => ⟨token_clean (libs_words hl n hn).1, (libs_words hl n hn).2⟩, ?_⟩
  have ht : ∀ t ∈ rest, IsToken t := fun t h => token_clean (hs.subset h)
  dsimp only at ho ⊢
  cases ho with
  | done => trivial
  | @obj lo name items objs toks mid rest hh hbody hn ho =>
    have hs := (body_suffix hbody).trans (header_suffix hh)
    refine ⟨?_, body_validItems hbody (fun t h => ht t ((header_suffix hh).subset h)), hn, ?_⟩
    · cases hh with
      | implicit h1 => exact .inl rfl
      | named => exact .inr (ht _ (by simp))
    · rw [counts_zero_add] at ho
      exact objects_validObjects ho (body_end hbody) fun t h => ht t (hs.subset h)

/-- **C28** Reading a text and writing what was read gives a text with the same result. -/
theorem C28_normal_form (hlen : input.length < 2 ^ 63) {r : ObjectSet F} (h : Obj.parse cfg input = .ok r) :
    ∃ file, ValidFile file ∧ r = meaning file ∧
      (file.text.length < 2 ^ 63 → Obj.parse cfg file.text = .ok r) := by
  obtain ⟨file, hf, rfl⟩ := (parse_ok_iff hlen).mp h
  have hv := C28_read_valid hf
  exact ⟨file, hv, rfl, fun hl => C28_write_read hv hl⟩

/-- Two objects, the first without a name, a library, all kinds of statements. -/
def sampleAst : FileAst :=
  ⟨[b!"a.mtl"],
   [⟨[], [.v b!"0" b!"0" b!"0" none, .v b!"1" b!"0" b!"0" (some b!"2"), .v b!"1" b!"1" b!"0" none,
      .vt b!"0" (some b!"1") none, .vn b!"0" b!"0" b!"1", .g [b!"left", b!"top"], .s 7, .usemtl b!"red",
      .f [⟨1, some 1, some 1⟩, ⟨2, some 1, some 1⟩, ⟨3, some 1, some 1⟩], .l [⟨1, none, some 1⟩, ⟨2, none, some 1⟩],
      .p [1, 3]]⟩,
    ⟨b!"second", [.v b!"5" b!"5" b!"5" none, .p [4]]⟩]⟩

instance (t : Tok) : Decidable (IsToken t) := by unfold IsToken Word; infer_instance
instance (refs : List Ref) : Decidable (Uniform refs) := by unfold Uniform; infer_instance
instance (lo hi : Counts) (r : Ref) : Decidable (ValidRef lo hi r) := by unfold ValidRef; infer_instance
instance (items : List Item) : Decidable (Bare items) := by unfold Bare; infer_instance
instance (lo hi : Counts) (it : Item) : Decidable (ValidItem lo hi it) := by
  cases it <;> unfold ValidItem <;> infer_instance
instance validItemsDec (lo hi : Counts) : (items : List Item) → Decidable (ValidItems lo hi items)
  | [] => isTrue trivial
  | it :: items =>
    have := validItemsDec lo (hi + it.counts) items
    inferInstanceAs (Decidable (_ ∧ _))
instance validObjectsDec (lo : Counts) : (objs : List ObjAst) → Decidable (ValidObjects lo objs)
  | [] => isTrue trivial
  | o :: objs =>
    have := validObjectsDec (lo + countsOf o.items) objs
    inferInstanceAs (Decidable (_ ∧ _ ∧ _ ∧ _))

theorem sampleAst_valid : ValidFile sampleAst := by
  refine ⟨by decide +kernel, ?_⟩
  show (_ ∨ _) ∧ ValidItems _ _ _ ∧ ¬ Bare _ ∧ ValidObjects _ _
  decide +kernel

example : sampleAst.text = b!"mtllib a.mtl\nv 0 0 0\nv 1 0 0 2\nv 1 1 0\nvt 0 1\nvn 0 0 1\n" ++
    b!"g left top\ns 7\nusemtl red\nf 1/1/1 2/1/1 3/1/1\nl 1//1 2//1\np 1 3\no second\nv 5 5 5\np 4\n" := by
  decide +kernel

example : Obj.parse debug sampleAst.text = .ok (meaning sampleAst : ObjectSet Bytes) :=
  C28_write_read sampleAst_valid (by decide +kernel)

/-! ## C35 -/

/-- Which of the optional parts an index has. -/
def form : VTNIndex → Bool × Bool
  | .V _ => (false, false)
  | .VT _ _ => (true, false)
  | .VN _ _ => (false, true)
  | .VTN _ _ _ => (true, true)

/-- Change the numbers in an index. -/
def renumber (f g h : Nat → Nat) : VTNIndex → VTNIndex
  | .V v => .V (f v)
  | .VT v t => .VT (f v) (g t)
  | .VN v n => .VN (f v) (h n)
  | .VTN v t n => .VTN (f v) (g t) (h n)

/-- **C35** `has_same_type_as` says whether two indices have the same optional parts. -/
theorem C35_exact (a b : VTNIndex) : a.has_same_type_as b = true ↔ form a = form b := by
  cases a <;> cases b <;> simp [VTNIndex.has_same_type_as, form]

/-- **C35** `has_same_type_as` is an equivalence relation. -/
theorem C35_equivalence : Equivalence fun a b : VTNIndex => a.has_same_type_as b = true where
  refl a := (C35_exact a a).mpr rfl
  symm {a b} h := (C35_exact b a).mpr ((C35_exact a b).mp h).symm
  trans {a b c} h h' := (C35_exact a c).mpr (((C35_exact a b).mp h).trans ((C35_exact b c).mp h'))

/-- **C35** `has_same_type_as` does not look at the numbers. -/
theorem C35_values (f g h f' g' h' : Nat → Nat) (a b : VTNIndex) :
    (renumber f g h a).has_same_type_as (renumber f' g' h' b) = a.has_same_type_as b := by
  cases a <;> cases b <;> rfl

example : (VTNIndex.VT 1 2).has_same_type_as (.VT 3 4) = true ∧
    (VTNIndex.VT 1 2).has_same_type_as (.VN 1 2) = false := by decide

/-! ## C36 -/

/-- **C36** `get_vtn_triple` returns exactly the data at the positions of the index, in the form
of the index. -/
theorem C36_exact {F : Type} (o : Object F) (x : VTNIndex) (d : VTNTriple F) :
    o.get_vtn_triple x = some d ↔
      (∃ v a, x = .V v ∧ d = .V a ∧ o.vertex_set[v]? = some a) ∨
      (∃ v t a b, x = .VT v t ∧ d = .VT a b ∧ o.vertex_set[v]? = some a ∧ o.texture_vertex_set[t]? = some b) ∨
      (∃ v n a c, x = .VN v n ∧ d = .VN a c ∧ o.vertex_set[v]? = some a ∧ o.normal_vertex_set[n]? = some c) ∨
      (∃ v t n a b c, x = .VTN v t n ∧ d = .VTN a b c ∧ o.vertex_set[v]? = some a ∧
        o.texture_vertex_set[t]? = some b ∧ o.normal_vertex_set[n]? = some c) := by
  cases x with
  | V v =>
    simp only [Object.get_vtn_triple]
    cases h1 : o.vertex_set[v]? <;> simp [h1, eq_comm]
  | VT v t =>
    simp only [Object.get_vtn_triple]
    cases h1 : o.vertex_set[v]? <;> cases h2 : o.texture_vertex_set[t]? <;> simp [h1, h2, eq_comm]
  | VN v n =>
    simp only [Object.get_vtn_triple]
    cases h1 : o.vertex_set[v]? <;> cases h2 : o.normal_vertex_set[n]? <;> simp [h1, h2, eq_comm]
  | VTN v t n =>
    simp only [Object.get_vtn_triple]
    cases h1 : o.vertex_set[v]? <;> cases h2 : o.texture_vertex_set[t]? <;>
      cases h3 : o.normal_vertex_set[n]? <;> simp [h1, h2, h3, eq_comm]

/-- All positions of the index exist in the object. -/
def Exist {F : Type} (o : Object F) : VTNIndex → Prop
  | .V v => v < o.vertex_set.length
  | .VT v t => v < o.vertex_set.length ∧ t < o.texture_vertex_set.length
  | .VN v n => v < o.vertex_set.length ∧ n < o.normal_vertex_set.length
  | .VTN v t n => v < o.vertex_set.length ∧ t < o.texture_vertex_set.length ∧ n < o.normal_vertex_set.length

/-- **C36** `get_vtn_triple` returns something iff all positions of the index exist. -/
theorem C36_some_iff {F : Type} (o : Object F) (x : VTNIndex) :
    (o.get_vtn_triple x).isSome = true ↔ Exist o x := by
  have e : ∀ {α : Type} (l : List α) (i : Nat), i < l.length ↔ l[i]?.isSome = true := by simp
  cases x with
  | V v =>
    simp only [Object.get_vtn_triple, Exist, e]
    cases o.vertex_set[v]? <;> simp
  | VT v t =>
    simp only [Object.get_vtn_triple, Exist, e]
    cases o.vertex_set[v]? <;> cases o.texture_vertex_set[t]? <;> simp
  | VN v n =>
    simp only [Object.get_vtn_triple, Exist, e]
    cases o.vertex_set[v]? <;> cases o.normal_vertex_set[n]? <;> simp
  | VTN v t n =>
    simp only [Object.get_vtn_triple, Exist, e]
    cases o.vertex_set[v]? <;> cases o.texture_vertex_set[t]? <;> cases o.normal_vertex_set[n]? <;> simp

example : ∃ o ∈ sampleResult.objects, Exist o (.VTN 2 0 0) ∧ ¬ Exist o (.VTN 2 1 0) := by
  refine ⟨sampleResult.objects[0]'(by decide), by simp, ?_, ?_⟩ <;>
    simp only [Exist] <;> decide +kernel

/-! ## C37 -/

/-- **C37** An index token is an optional sign and digits, and its value, the usual decimal
value, fits a 64-bit signed integer. -/
theorem C37_index (line : Nat) (t : Tok) (rest : List Tok) (i : Int) :
    (parse_isize ⟨line, t :: rest⟩ : Out ErrorKind Int × PState (List Tok)).1 = .ok i ↔
      ∃ ds n, Decimal ds n ∧
        (((t = ds ∨ t = b!"+" ++ ds) ∧ i = n) ∨ (t = b!"-" ++ ds ∧ i = -(n : Int))) ∧
        -2 ^ 63 ≤ i ∧ i ≤ 2 ^ 63 - 1 := by
  rw [show (∃ ds n, Decimal ds n ∧
        (((t = ds ∨ t = b!"+" ++ ds) ∧ i = n) ∨ (t = b!"-" ++ ds ∧ i = -(n : Int))) ∧
        -2 ^ 63 ≤ i ∧ i ≤ 2 ^ 63 - 1) ↔ parseIsize t = some i from parseIsize_iff.symm]
  have key : ∀ q, parseIsize t = q → ((parse_isize ⟨line, t :: rest⟩ : Out ErrorKind Int × PState (List Tok)).1 = .ok i ↔
      q = some i) := by
    intro q hq
    have hn := next_string_cons t rest
    obtain ⟨l', -, e⟩ := hn.run line
    unfold parse_isize
    show (P.bind _ _ _).1 = _ ↔ _
    simp only [P.bind, e, Res.at]
    cases q with
    | none => simp [hq, P.error]
    | some j =>
      rw [hq]
      show (Out.ok j = Out.ok i) ↔ _
      simp
  exact key _ rfl

/-- **C37** A smoothing group name is `off`, or an optional `+` and digits whose usual decimal
value fits a 64-bit unsigned integer. -/
theorem C37_smoothing (line : Nat) (t : Tok) (rest : List Tok) (gs gs' : List SmoothingGroup) :
    (parse_smoothing_group gs ⟨line, b!"s" :: t :: rest⟩ :
        Out ErrorKind (List SmoothingGroup) × PState (List Tok)).1 = .ok gs' ↔
      ∃ n, gs' = gs ++ [⟨n⟩] ∧ ((t = b!"off" ∧ n = 0) ∨
        ∃ ds, (t = ds ∨ t = b!"+" ++ ds) ∧ Decimal ds n ∧ n ≤ 2 ^ 64 - 1) := by
  rw [show (∃ n, gs' = gs ++ [⟨n⟩] ∧ ((t = b!"off" ∧ n = 0) ∨
        ∃ ds, (t = ds ∨ t = b!"+" ++ ds) ∧ Decimal ds n ∧ n ≤ 2 ^ 64 - 1)) ↔
      ∃ n, gs' = gs ++ [⟨n⟩] ∧ ((t = b!"off" ∧ n = 0) ∨ parseUsize t = some n) from
    exists_congr fun n => and_congr_right fun _ => or_congr_right parseUsize_iff.symm]
  obtain ⟨l', -, e⟩ := (expect_tag_cons b!"s" (t :: rest)).run line
  obtain ⟨l'', -, e'⟩ := (Yields.next_cons (K := ErrorKind) t rest).run l'
  unfold parse_smoothing_group
  show (P.bind _ _ _).1 = _ ↔ _
  simp only [P.bind, e, Res.at]
  show (P.bind _ _ _).1 = _ ↔ _
  simp only [P.bind, e', Res.at]
  by_cases ho : t = b!"off"
  · subst ho
    have : parseUsize b!"off" = none := by decide
    simp only [if_true, this]
    show Out.ok _ = _ ↔ _
    simp [eq_comm]
  · simp only [ho, if_false]
    cases hp : parseUsize t with
    | none => simp [P.error]
    | some n =>
      show Out.ok _ = _ ↔ _
      simp [eq_comm]

/-- **C37** Printing a number and reading it back is the identity. -/
theorem C37_print_index {i : Int} (h1 : -2 ^ 63 ≤ i) (h2 : i ≤ 2 ^ 63 - 1) :
    parseIsize (showInt i) = some i :=
  parseIsize_showInt h1 h2

theorem C37_print_usize {n : Nat} (h : n ≤ 2 ^ 64 - 1) : parseUsize (showNat n) = some n :=
  parseUsize_showNat h

/-- The digits of a number in base 10, the most significant one first and not 0; `0` for zero. -/
def decimalText (n : Nat) : Bytes :=
  if n = 0 then b!"0" else (Nat.digits 10 n).reverse.map fun d => UInt8.ofNat (48 + d)

/-- **C37** A number is printed in decimal without leading zeros, with a minus sign if it is negative. -/
theorem C37_print_text (n : Nat) (i : Int) : showNat n = decimalText n ∧
    showInt i = (if i < 0 then b!"-" else []) ++ decimalText i.natAbs := by
  have h : ∀ n, showNat n = decimalText n := fun n => by
    rcases Nat.eq_zero_or_pos n with rfl | hn
    · rfl
    · rw [showNat_digits hn, decimalText, if_neg hn.ne']
  refine ⟨h n, ?_⟩
  rw [← h, showInt]
  split <;> rfl

example : showInt (-120) = b!"-120" ∧ showNat 0 = b!"0" ∧ decimalText 907 = b!"907" := by decide +kernel

/-- Signs, leading zeros, the largest value, one too many. -/
example : parseIsize b!"-0012" = some (-12) ∧ parseIsize b!"+7" = some 7 ∧ parseUsize b!"-7" = none ∧
    parseIsize b!"9223372036854775807" = some (2 ^ 63 - 1) ∧ parseIsize b!"9223372036854775808" = none := by
  decide +kernel

end Verif.Props
