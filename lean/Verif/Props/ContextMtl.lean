import Verif.Props.Context
import Verif.Props.Named
import Verif.Props.Errors

/-!
# What later lines of a material library see of earlier lines

Lines of a material library have been read, and more lines follow. What these are taken for depends
on one bit: whether a material has begun.
-/

namespace Verif.Props

open Verif Verif.Spec Verif.Spec.Mtl Verif.Mtl

variable {F : Type} [FloatSem F]

/-- Two results and what they have become after more lines: only the last material has changed, in
each of its attributes either both not at all or both to the same; and the same materials were added. -/
structure SameSet (r r' q q' : MaterialSet F) : Prop where
  before : r'.materials.take (r.materials.length - 1) = r.materials.dropLast ∧
    q'.materials.take (q.materials.length - 1) = q.materials.dropLast
  added : ∃ added, r'.materials = r'.materials.take r.materials.length ++ added ∧
    q'.materials = q'.materials.take q.materials.length ++ added
  last : ∀ m ∈ r.materials.getLast?, ∃ m' ∈ r'.materials[r.materials.length - 1]?,
    ∀ n ∈ q.materials.getLast?, ∃ n' ∈ q'.materials[q.materials.length - 1]?,
    m'.name = m.name ∧ n'.name = n.name ∧
    ∀ x : Attr, (Agree m m' x ∧ Agree n n' x) ∨ Agree m' n' x

theorem last_over {α β : Type} {f : α → Option β} {l more : List α} (h : ∃ z ∈ more, (f z).isSome) :
    last f (l ++ more) = last f more := by
  obtain ⟨z, hz, hs⟩ := h
  obtain ⟨y, hy⟩ := Option.isSome_iff_exists.mp hs
  have hne : more.filterMap f ≠ [] := List.ne_nil_of_mem (List.mem_filterMap.mpr ⟨z, hz, hy⟩)
  unfold last
  rw [List.filterMap_append, List.getLast?_append, List.getLast?_eq_some_getLast hne, Option.some_or]

/-- What the later statements set, they set to the same. -/
theorem agree_over (name name' : Bytes) (items items' more : List Item) (x : Attr) (h : ∃ it ∈ more, attr it = x) :
    Agree (matMeaning ⟨name, items ++ more⟩ : Material F) (matMeaning ⟨name', items' ++ more⟩) x := by
  obtain ⟨it, hit, rfl⟩ := h
  cases it with
  | color s r g b =>
    simp only [attr, Agree, colorOf_meaning]
    rw [last_over ⟨_, hit, by simp [Item.color?]⟩, last_over ⟨_, hit, by simp [Item.color?]⟩]
  | num s t =>
    have : ∀ l, last (Item.num? (F := F) s) (l ++ more) = last (Item.num? s) more :=
      fun l => last_over ⟨_, hit, by simp [Item.num?]⟩
    cases s <;> simp only [attr, Agree, matMeaning, this]
  | illum model =>
    simp only [attr, Agree, matMeaning]
    rw [last_over ⟨_, hit, by simp [Item.illum?]⟩, last_over ⟨_, hit, by simp [Item.illum?]⟩]
  | map s t =>
    simp only [attr, Agree, mapOf_meaning]
    rw [last_over ⟨_, hit, by simp [Item.map?]⟩, last_over ⟨_, hit, by simp [Item.map?]⟩]

/-- How a library goes on after complete lines that were accepted. -/
theorem after_lines_mtl {a : Bytes} {r : MaterialSet F} (h : Mtl.parse (a ++ [10]) = .ok r) :
    (r.materials = [] ∧ ∃ n, ∀ b, tokens (a ++ 10 :: b) = List.replicate n nl ++ tokens b) ∨
    ∃ init name items, r = meaning (init ++ [⟨name, items⟩]) ∧ ∀ b, At (tokens (a ++ 10 :: b)) init name items (tokens b) := by
  obtain ⟨mats, hf, rfl⟩ := Mtl.parse_ok_iff.mp h
  have hl := tokens_line_last a
  obtain ⟨A, hA⟩ := List.getLast?_eq_some_iff.mp hl
  have hY : ∀ b, tokens (a ++ 10 :: b) = A ++ nl :: tokens b := fun b => by
    rw [tokens_two_lines, hA]; simp
  rcases file_line A with ⟨k, m, u, hu⟩ | ⟨done, name, items, hat⟩ | hnl
  · exfalso
    have := hu []
    rw [← hA] at this
    rw [Mtl.parse_err_of this] at h
    cases h
  · refine .inr ⟨done, name, items, ?_, fun b => hY b ▸ hat (tokens b)⟩
    have := at_ok (hat []) (.done (.inl rfl)) .done
    rw [← hA, List.append_nil] at this
    rw [file_unique hf this]
  · refine .inl ⟨?_, A.length + 1, fun b => ?_⟩
    · have : FileOk (A ++ [nl]) [] := by
        have e : A ++ [nl] = List.replicate (A.length + 1) nl ++ [] := by
          rw [List.append_nil, List.replicate_succ', ← List.eq_replicate_of_mem hnl]
        rw [e]
        exact file_of_shape .done
      rw [← hA] at this
      rw [file_unique hf this]
      rfl
    · rw [hY, List.replicate_succ', ← List.eq_replicate_of_mem hnl]
      simp

theorem fileErr_blanks {toks k m u} (n : Nat) (h : FileErr toks k m u) : FileErr (List.replicate n nl ++ toks) k m u := by
  induction n with
  | zero => exact h
  | succ n ih => exact .blank ih

theorem fileOk_blanks {toks mats} (n : Nat) (h : FileOk toks mats) : FileOk (List.replicate n nl ++ toks) mats := by
  induction n with
  | zero => exact h
  | succ n ih => exact .blank ih

/-- **C98** Two texts of complete lines are accepted as material libraries, and both have a material
or both have none. Whatever lines follow, they are taken in the same way after both: both are
accepted, the last material is changed in the same attributes to the same values and the same
materials are added, or both are rejected with the same kind and message on the same line, counted
from the end of the first lines. -/
theorem C98_same {a a' b : Bytes} {r q : MaterialSet F} (h : Mtl.parse (a ++ [10]) = .ok r)
    (h' : Mtl.parse (a' ++ [10]) = .ok q) (hv : r.materials = [] ↔ q.materials = []) :
    (∃ r' q', Mtl.parse (a ++ 10 :: b) = .ok r' ∧ Mtl.parse (a' ++ 10 :: b) = .ok q' ∧ SameSet r r' q q') ∨
    (∃ n kind message,
      (Mtl.parse (a ++ 10 :: b) : Out ErrorKind (MaterialSet F)) = .err ⟨(a ++ [10]).count 10 + n, kind, message⟩ ∧
      (Mtl.parse (a' ++ 10 :: b) : Out ErrorKind (MaterialSet F)) = .err ⟨(a' ++ [10]).count 10 + n, kind, message⟩) := by
  have hshift : ∀ {k : ErrorKind} {m : Bytes} {u : List Tok}, u <:+ tokens b →
      FileErr (tokens (a ++ 10 :: b)) k m u → FileErr (tokens (a' ++ 10 :: b)) k m u →
      ∃ n kind message,
        (Mtl.parse (a ++ 10 :: b) : Out ErrorKind (MaterialSet F)) = .err ⟨(a ++ [10]).count 10 + n, kind, message⟩ ∧
        (Mtl.parse (a' ++ 10 :: b) : Out ErrorKind (MaterialSet F)) =
          .err ⟨(a' ++ [10]).count 10 + n, kind, message⟩ := by
    intro k m u hu h1 h2
    refine ⟨1 + nls (tokens b) - nls u, k, m, ?_, ?_⟩
    · rw [Mtl.parse_err_of h1, line_of hu]
    · rw [Mtl.parse_err_of h2, line_of hu]
  rcases after_lines_mtl h with ⟨e, n, hn⟩ | ⟨init, name, items, rfl, hat⟩
  · rcases after_lines_mtl h' with ⟨e', n', hn'⟩ | ⟨init', name', items', rfl, hat'⟩
    · rcases Mtl.file_total (tokens b) with ⟨mats, hf⟩ | ⟨k, m, u, hf⟩
      · refine .inl ⟨_, _, Mtl.parse_ok_of (hn b ▸ fileOk_blanks n hf), Mtl.parse_ok_of (hn' b ▸ fileOk_blanks n' hf), ?_, ?_, ?_⟩
        · simp [e, e']
        · simp [e, e']
        · simp [e]
      · exact .inr (hshift (fileErr_suffix hf) (hn b ▸ fileErr_blanks n hf) (hn' b ▸ fileErr_blanks n' hf))
    · simp [meaning, e] at hv
  · rcases after_lines_mtl h' with ⟨e', n', hn'⟩ | ⟨init', name', items', rfl, hat'⟩
    · simp [meaning, e'] at hv
    · rcases Mtl.body_total (tokens b) with ⟨more, mid, hb⟩ | ⟨k, m, u, hb⟩
      · rcases Mtl.mats_total (Mtl.body_end hb) with ⟨mats, hm⟩ | ⟨k, m, u, hm⟩
        · refine .inl ⟨_, _, Mtl.parse_ok_of (at_ok (hat b) hb hm), Mtl.parse_ok_of (at_ok (hat' b) hb hm), ?_, ?_, ?_⟩
          · simp [meaning]
          · refine ⟨(meaning mats).materials, ?_, ?_⟩ <;>
              simp [meaning, List.take_append, List.take_of_length_le]
          · simp only [meaning, List.map_append, List.map_cons, List.map_nil, List.getLast?_concat, Option.mem_def,
              Option.some.injEq, forall_eq', List.length_append, List.length_map, List.length_singleton,
              Nat.add_sub_cancel]
            refine ⟨matMeaning ⟨name, items ++ more⟩, by simp, matMeaning ⟨name', items' ++ more⟩, by simp, rfl, rfl, fun x => ?_⟩
            by_cases hx : ∃ it ∈ more, attr it = x
            · exact .inr (agree_over _ _ _ _ _ x hx)
            · have hx' : ∀ it ∈ more, attr it ≠ x := fun it hit e => hx ⟨it, hit, e⟩
              exact .inl ⟨agree_more _ _ _ x hx', agree_more _ _ _ x hx'⟩
        · exact .inr (hshift ((matsErr_suffix hm).trans (body_suffix hb)) (at_later (hat b) hb hm) (at_later (hat' b) hb hm))
      · exact .inr (hshift (bodyErr_suffix hb) (at_err (hat b) hb) (at_err (hat' b) hb))

/-- **C98** The line `d 0` tells whether there is a material: it is accepted after complete lines
exactly if they have one. -/
theorem C98_differ {a : Bytes} {r : MaterialSet F} (h : Mtl.parse (a ++ [10]) = .ok r) :
    (∃ r' : MaterialSet F, Mtl.parse (a ++ 10 :: b!"d 0") = .ok r') ↔ r.materials ≠ [] := by
  have ht : tokens b!"d 0" = [b!"d", b!"0"] := by decide +kernel
  rcases after_lines_mtl h with ⟨e, n, hn⟩ | ⟨init, name, items, rfl, hat⟩
  · refine ⟨fun ⟨r', hr⟩ => ?_, fun hne => absurd e hne⟩
    have hf : FileErr (tokens (a ++ 10 :: b!"d 0")) .ExpectedEndOfInput (trailingText b!"d") [b!"d", b!"0"] := by
      rw [hn, ht]; exact fileErr_blanks n (.trailing (by decide) (by decide))
    rw [Mtl.parse_err_of hf] at hr
    cases hr
  · refine ⟨fun _ => by simp [meaning], fun _ => ?_⟩
    have hb : Body [.num .dissolve b!"0"] (tokens b!"d 0") [] := by
      rw [ht]; exact .stmt (.num (s := .dissolve) (by decide)) (.done (.inl rfl))
    exact ⟨_, Mtl.parse_ok_of (at_ok (hat _) hb .done)⟩

/-! ## Examples -/

/-- Two libraries that have nothing in common but a material. -/
def redLines : Bytes := b!"newmtl red\nKd 1 0 0"
def manyLines : Bytes := b!"# none\n\nnewmtl a\nnewmtl b\nd 0.5\nNs 10\nKd 0 1 0"

theorem redLines_parses : Mtl.parse (redLines ++ [10]) = .ok
    (meaning [⟨b!"red", [.color .diffuse b!"1" b!"0" b!"0"]⟩] : MaterialSet Bytes) := by decide +kernel

theorem manyLines_parses : Mtl.parse (manyLines ++ [10]) = .ok
    (meaning [⟨b!"a", []⟩, ⟨b!"b", [.num .dissolve b!"0.5", .num .exponent b!"10", .color .diffuse b!"0" b!"1" b!"0"]⟩] :
      MaterialSet Bytes) := by decide +kernel

/-- The lines that follow set one attribute and begin a material. -/
example : ∃ r' q' : MaterialSet Bytes, Mtl.parse (redLines ++ 10 :: b!"Ns 3\nnewmtl c\nillum 1") = .ok r' ∧
    Mtl.parse (manyLines ++ 10 :: b!"Ns 3\nnewmtl c\nillum 1") = .ok q' ∧
    SameSet (meaning [⟨b!"red", [.color .diffuse b!"1" b!"0" b!"0"]⟩]) r'
      (meaning [⟨b!"a", []⟩, ⟨b!"b", [.num .dissolve b!"0.5", .num .exponent b!"10", .color .diffuse b!"0" b!"1" b!"0"]⟩]) q' := by
  rcases C98_same (b := b!"Ns 3\nnewmtl c\nillum 1") redLines_parses manyLines_parses (by simp [meaning]) with h | ⟨n, k, m, h, -⟩
  · exact h
  · exfalso
    have : kindOf (Mtl.parse (redLines ++ 10 :: b!"Ns 3\nnewmtl c\nillum 1") : Out ErrorKind (MaterialSet Bytes)) = none := by
      decide +kernel
    rw [h] at this
    cases this

/-- A bad line is rejected after both, on its own line. -/
example :
    (Mtl.parse (redLines ++ 10 :: b!"\nKd 1 0") : Out ErrorKind (MaterialSet Bytes)) = .err ⟨4, .EndOfFile, eofText⟩ ∧
    (Mtl.parse (manyLines ++ 10 :: b!"\nKd 1 0") : Out ErrorKind (MaterialSet Bytes)) = .err ⟨9, .EndOfFile, eofText⟩ := by
  decide +kernel

/-- Without a material the line `d 0` is rejected. -/
example : (Mtl.parse (b!"# none" ++ [10]) : Out ErrorKind (MaterialSet Bytes)) = .ok ⟨[]⟩ ∧
    kindOf (Mtl.parse (b!"# none" ++ 10 :: b!"d 0") : Out ErrorKind (MaterialSet Bytes)) = some .ExpectedEndOfInput := by
  decide +kernel

end Verif.Props
