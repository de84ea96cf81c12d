import Verif.Props.Robust
import Verif.Props.Objects
import Verif.Props.Language
import Verif.Proofs.Twin

/-!
# Properties C50–C56: what holds where C09, C15, C21, C22, C41, C44 and C45 fail
-/

namespace Verif.Props

open Verif Verif.Obj Verif.Spec Verif.Spec.Obj

variable {F : Type} [FloatSem F] {cfg : Cfg} {input : Bytes}

/-! ## C50 -/

/-- **C50** `obj::parse` panics exactly if, everything before being in order, an object ends
that has no element and no `usemtl`, or the build checks for overflow and an index
overflows. -/
theorem C50_panics_iff (hlen : input.length < 2 ^ 63) :
    (∃ x, (Obj.parse cfg input : Out ErrorKind (ObjectSet F)) = .panic x) ↔
      FilePanic cfg (tokens input) .materialIndex ∨
      (cfg.overflow_checks = true ∧ FilePanic cfg (tokens input) .indexSubOverflow) := by
  constructor
  · rintro ⟨x, h⟩
    rcases C09_panic_sites_partial hlen h with rfl | ⟨rfl, ho⟩
    · exact .inl ((C09_exact hlen _).mp h)
    · exact .inr ⟨ho, (C09_exact hlen _).mp h⟩
  · rintro (h | ⟨-, h⟩)
    · exact ⟨_, (C09_exact hlen _).mpr h⟩
    · exact ⟨_, (C09_exact hlen _).mpr h⟩

/-- **C50** Which of the two it is shows in the panic. -/
theorem C50_panic_site (hlen : input.length < 2 ^ 63) (x : PanicSite) :
    (Obj.parse cfg input : Out ErrorKind (ObjectSet F)) = .panic x ↔
      (x = .materialIndex ∧ FilePanic cfg (tokens input) .materialIndex) ∨
      (x = .indexSubOverflow ∧ cfg.overflow_checks = true ∧
        FilePanic cfg (tokens input) .indexSubOverflow) := by
  constructor
  · intro h
    rcases C09_panic_sites_partial hlen h with rfl | ⟨rfl, ho⟩
    · exact .inl ⟨rfl, (C09_exact hlen _).mp h⟩
    · exact .inr ⟨rfl, ho, (C09_exact hlen _).mp h⟩
  · rintro (⟨rfl, h⟩ | ⟨rfl, -, h⟩)
    · exact (C09_exact hlen _).mpr h
    · exact (C09_exact hlen _).mpr h

/-- **C50** Every accepted file is brought down by one more object without element and
`usemtl`, in every build profile. -/
theorem C50_bare_object {b : Bytes} (hlen : (input ++ 10 :: b).length < 2 ^ 63) {r : ObjectSet F}
    (h : Obj.parse cfg input = .ok r) {name : Bytes} {body : List Tok} {items : List Item}
    (hb : tokens b = b!"o" :: name :: nl :: body) (hbody : Body cfg (totals r) (totals r) items body [])
    (hbare : ∀ it ∈ items, it.isElement = false ∧ it.isUsemtl = false) :
    (Obj.parse cfg (input ++ 10 :: b) : Out ErrorKind (ObjectSet F)) = .panic .materialIndex := by
  have hl : input.length < 2 ^ 63 := by simp at hlen; omega
  obtain ⟨file, hf, rfl⟩ := (parse_ok_iff hl).mp h
  rw [totals_meaning] at hbody
  obtain ⟨mid, h1, h2⟩ := file_append_gen (Q := fun lo toks => ObjectsPanic cfg lo toks .materialIndex)
    (fun a b c d => .later a b c d) hf (X := tokens b) (.inr (by rw [hb]; rfl))
    (by rw [hb]; exact .bare .named hbody hbare)
  rw [← tokens_append_nl] at h1
  exact parse_panic_of hlen ⟨_, _, h1, h2⟩

example : Obj.parse debug (b!"v 0 0 0\np 1\n" ++ 10 :: b!"o x\n") =
    (.panic .materialIndex : Out ErrorKind (ObjectSet Bytes)) := by
  have h : Obj.parse debug b!"v 0 0 0\np 1\n" = .ok (⟨[], [⟨[], [⟨b!"0", b!"0", b!"0", b!"1"⟩], [], [],
      [⟨b!"default"⟩], [⟨0⟩], [.Point (.V 0)], [⟨0, [0], 0⟩], [⟨none, [0]⟩]⟩]⟩ : ObjectSet Bytes) := by
    decide +kernel
  exact C50_bare_object (by decide) h (name := b!"x") (body := []) (items := []) (by decide)
    (.done (.inl rfl)) (by simp)

/-! ## C51 -/

/-- **C51** Each element is assigned the groups in force at its statement: the names on the
most recent `g` before it in its object; `default` if there is none, or if it has no names and
no element and no name came before it. -/
theorem C51_groups (hlen : input.length < 2 ^ 63) {file : FileAst} (hf : FileOk cfg (tokens input) file)
    {r : ObjectSet F} (h : Obj.parse cfg input = .ok r) {j : Nat} {ast : ObjAst}
    (ha : file.objects[j]? = some ast) {pre post : List Item} {it : Item}
    (hi : ast.items = pre ++ it :: post) (he : it.isElement = true) {i : Nat} (h1 : sizes pre ≤ i)
    (h2 : i < sizes pre + it.size) :
    ∃ o, r.objects[j]? = some o ∧ ∃ e, o.shape_set[i]? = some e ∧
      e.groups.map (fun g => o.group_set[g]?.map Group.name) =
        (groupsInForce pre.reverse).map some :=
  C15_groups_exact hlen hf h ha hi he h1 h2

/-- The four cases. -/
example :
    groupsInForce [.p [1], .s 2] = [b!"default"] ∧
    groupsInForce [.s 2, .g [b!"a", b!"b"], .g [b!"c"]] = [b!"a", b!"b"] ∧
    groupsInForce [.g [], .s 2] = [b!"default"] ∧
    groupsInForce [.g [], .p [1]] = [] ∧ groupsInForce [.g [], .g [b!"c"]] = [] := by decide

/-! ## C52, C53, C55 -/

section
variable {lo hi : Counts} {here : List Tok} (hlen : input.length < 2 ^ 63)
  (hat : AtStmt cfg (tokens input) lo hi here)
include hlen hat

/-- **C52** A file is not accepted if at one of its statements there is an index out of range
that the statement cannot do without: any index of a `p`, one of the first two of an `l`, one
of the first three of an `f`. -/
theorem C52_reported {kw : Tok} {ts : List Tok} {t : Tok} {rest : List Tok}
    (e : here = kw :: (ts ++ t :: rest))
    (hbad : (kw = b!"p" ∧ (∃ is, List.Forall₂ (NumTok lo.v hi.v) ts is) ∧
        ∃ k, parseIsize t = some k ∧ (k ≤ lo.v ∨ hi.v < k)) ∨
      (kw = b!"l" ∧ ts.length < 2 ∧ (∃ refs, List.Forall₂ (RefTok lo hi) ts refs) ∧ OutOfRange cfg lo hi t) ∨
      (kw = b!"f" ∧ ts.length < 3 ∧ (∃ refs, List.Forall₂ (RefTok lo hi) ts refs) ∧ OutOfRange cfg lo hi t)) :
    (∃ e, (Obj.parse cfg input : Out ErrorKind (ObjectSet F)) = .err e) ∨
    (cfg.overflow_checks = true ∧
      (Obj.parse cfg input : Out ErrorKind (ObjectSet F)) = .panic .indexSubOverflow) := by
  rcases hbad with ⟨rfl, ⟨is, h1⟩, k, hk, hr⟩ | ⟨rfl, h2, ⟨refs, h1⟩, hr⟩ | ⟨rfl, h2, ⟨refs, h1⟩, hr⟩
  · rcases C21_points (F := F) hlen hat e h1 hk hr with ⟨_, _, h⟩ | ⟨h, _, h'⟩
    · exact .inl ⟨_, h⟩
    · exact .inr ⟨h, h'⟩
  · rcases C21_lines_partial (F := F) hlen hat e h1 h2 hr with ⟨_, _, h⟩ | h
    · exact .inl ⟨_, h⟩
    · exact .inr h
  · rcases C21_faces_partial (F := F) hlen hat e h1 h2 hr with ⟨_, _, h⟩ | h
    · exact .inl ⟨_, h⟩
    · exact .inr h

/-- **C53** A zero or negative vertex index is never accepted: not anywhere in a `p`, not
in the first two references of an `l`, not in the first three of an `f`. -/
theorem C53_nonpositive {kw : Tok} {ts : List Tok} {t : Tok} {rest : List Tok} {k : Int}
    (e : here = kw :: (ts ++ t :: rest))
    (hkw : (kw = b!"p" ∧ (∃ is, List.Forall₂ (NumTok lo.v hi.v) ts is) ∧ parseIsize t = some k) ∨
      (kw = b!"l" ∧ ts.length < 2 ∧ (∃ refs, List.Forall₂ (RefTok lo hi) ts refs) ∧
        parseIsize (piece t 0) = some k) ∨
      (kw = b!"f" ∧ ts.length < 3 ∧ (∃ refs, List.Forall₂ (RefTok lo hi) ts refs) ∧
        parseIsize (piece t 0) = some k)) (hk : k ≤ 0) :
    ∀ r, (Obj.parse cfg input : Out ErrorKind (ObjectSet F)) ≠ .ok r := by
  intro r hr
  have := C52_reported (F := F) hlen hat e (by
    rcases hkw with ⟨h0, h1, h2⟩ | ⟨h0, h1, h2, h3⟩ | ⟨h0, h1, h2, h3⟩
    · exact .inl ⟨h0, h1, k, h2, .inl (by omega)⟩
    · exact .inr (.inl ⟨h0, h1, h2, .v h3 (.inl (by omega))⟩)
    · exact .inr (.inr ⟨h0, h1, h2, .v h3 (.inl (by omega))⟩))
  rcases this with ⟨_, h⟩ | ⟨_, h⟩ <;> rw [hr] at h <;> cases h

/-- **C55** A carriage return where a statement is expected is an invalid statement. -/
theorem C55_carriage_return {rest : List Tok} (e : here = [13] :: rest) :
    ∃ line, (Obj.parse cfg input : Out ErrorKind (ObjectSet F)) =
      .err ⟨line, .InvalidObjectStatement, b!"Unsupported or invalid object statement `\r`."⟩ :=
  C44_rejected hlen hat e

end

/-- **C52** A later faulty token of an `l` or `f` is swallowed: the statement has the
references before it, and the file goes on after it. -/
theorem C52_swallowed {lo hi : Counts} {ts : List Tok} {refs : List Ref} {t : Tok} {rest : List Tok}
    (hr : List.Forall₂ (RefTok lo hi) ts refs) (hu : Uniform refs) (ht : OutOfRange cfg lo hi t)
    (hc : cfg.overflow_checks = false) :
    (3 ≤ refs.length → Stmt cfg lo hi (.f refs) (b!"f" :: (ts ++ t :: rest)) rest) ∧
    (2 ≤ refs.length → Stmt cfg lo hi (.l refs) (b!"l" :: (ts ++ t :: rest)) rest) := by
  rcases outOfRange_cases ht with ⟨m, h⟩ | ⟨h, -⟩
  · exact C21_swallowed hr hu h
  · rw [hc] at h; cases h

/-- The tokens of whole lines. -/
theorem tokens_twin_lines {a : Bytes} (ha : a = [] ∨ a.getLast? = some 10) (b : Bytes) :
    tokens (a ++ b) = tokens a ++ tokens b := by
  rcases ha with rfl | ha
  · rfl
  · obtain ⟨a', rfl⟩ := List.getLast?_eq_some_iff.mp ha
    have h1 := tokens_append_nl a' b
    have h2 := tokens_append_nl a' []
    rw [List.append_assoc, List.singleton_append, h1, h2, show tokens [] = [] from rfl]
    simp

/-- **C52** A faulty token at the end of an `l` line after two good references, or of an `f`
line after three, can be left out: the outcome of the parse is the same. -/
theorem C52_forgotten {lo hi : Counts} {a b l l' : Bytes} {kw : Tok} {ts : List Tok} {refs : List Ref} {t : Tok} {k m}
    (hlen : (a ++ (l ++ 10 :: b)).length < 2 ^ 63) (hlen' : (a ++ (l' ++ 10 :: b)).length < 2 ^ 63)
    (ha : a = [] ∨ a.getLast? = some 10)
    (hat : AtStmt cfg (tokens (a ++ (l ++ 10 :: b))) lo hi (tokens (l ++ 10 :: b)))
    (hl : tokens l = kw :: (ts ++ [t])) (hl' : tokens l' = kw :: ts)
    (hr : List.Forall₂ (RefTok lo hi) ts refs) (hu : Uniform refs)
    (hk : (kw = b!"l" ∧ 2 ≤ refs.length) ∨ (kw = b!"f" ∧ 3 ≤ refs.length))
    (ht : RefErr cfg lo hi t k m) (hnl : t ≠ nl) :
    (Obj.parse cfg (a ++ (l ++ 10 :: b)) : Out ErrorKind (ObjectSet F)) = Obj.parse cfg (a ++ (l' ++ 10 :: b)) := by
  have e1 : tokens (l ++ 10 :: b) = kw :: (ts ++ t :: nl :: tokens b) := by
    rw [tokens_append_nl, hl]; simp
  have e2 : tokens (l' ++ 10 :: b) = kw :: (ts ++ nl :: tokens b) := by
    rw [tokens_append_nl, hl']; simp
  have hs : ∃ it, Stmt cfg lo hi it (tokens (l ++ 10 :: b)) (nl :: tokens b) ∧
      Stmt cfg lo hi it (tokens (l' ++ 10 :: b)) (tokens b) := by
    rw [e1, e2]
    rcases hk with ⟨rfl, h⟩ | ⟨rfl, h⟩
    · exact ⟨_, .l h hr hu (.inl ⟨t, k, m, rfl, ht⟩), .l h hr hu (.inl ⟨nl, _, _, rfl, refErr_nl cfg lo hi⟩)⟩
    · exact ⟨_, .f h hr hu (.inl ⟨t, k, m, rfl, ht⟩), .f h hr hu (.inl ⟨nl, _, _, rfl, refErr_nl cfg lo hi⟩)⟩
  obtain ⟨it, hs, hs'⟩ := hs
  obtain ⟨pre, e, hsame⟩ := atStmt_same hat hs
  obtain rfl : tokens a = pre := by
    rw [tokens_twin_lines ha] at e
    exact List.append_cancel_right e
  have hcount : nls (tokens (a ++ (l ++ 10 :: b))) = nls (tokens (a ++ (l' ++ 10 :: b))) := by
    rw [tokens_twin_lines ha, tokens_twin_lines ha, e1, e2]
    simp only [nls, List.count_append, List.count_cons, beq_iff_eq, hnl, if_false, Nat.add_zero]
  have hsame := hsame (tokens (l' ++ 10 :: b)) (by rw [e1, e2]; rfl) hs'
  rw [← tokens_twin_lines ha] at hsame
  rcases hsame with ⟨file, h, h'⟩ | ⟨k, m, rest, h, h'⟩ | ⟨x, h, h'⟩
  · rw [Obj.parse_ok_of hlen h, Obj.parse_ok_of hlen' h']
  · rw [Obj.parse_err_of hlen h, Obj.parse_err_of hlen' h', hcount]
  · rw [Obj.parse_panic_of hlen h, Obj.parse_panic_of hlen' h']

/-- The face `f 1 2 3 99` in front of any other text. -/
example (b : Bytes) (hlen : b.length < 2 ^ 62) :
    (Obj.parse debug (b!"v 0 0 0\nv 0 0 1\nv 0 1 0\n" ++ (b!"f 1 2 3 99" ++ 10 :: b)) : Out ErrorKind (ObjectSet F)) =
      Obj.parse debug (b!"v 0 0 0\nv 0 0 1\nv 0 1 0\n" ++ (b!"f 1 2 3" ++ 10 :: b)) := by
  have hp : ∀ t k, parseIsize (piece t 0) = some ((k : Nat) : Int) → 0 < k ∧ k ≤ 3 → (pieces t).length = 1 → piece t 1 = [] →
      piece t 2 = [] → RefTok {} ⟨3, 0, 0⟩ t ⟨k, none, none⟩ := by
    intro t k h1 h2 h3 h4 h5
    exact ⟨by rw [h3]; decide, .inr ⟨k, parseIsize_nonempty h1, ⟨h1, h2.1, h2.2⟩, rfl⟩, .inl ⟨h4, rfl⟩, .inl ⟨h5, rfl⟩⟩
  refine C52_forgotten (lo := {}) (hi := ⟨3, 0, 0⟩) (kw := b!"f") (ts := [b!"1", b!"2", b!"3"]) (t := b!"99")
    (refs := [⟨1, none, none⟩, ⟨2, none, none⟩, ⟨3, none, none⟩]) ?_ ?_ (.inr (by decide)) ?_ (by decide +kernel) (by decide +kernel)
    (.cons (hp _ 1 ?_ ?_ ?_ ?_ ?_) (.cons (hp _ 2 ?_ ?_ ?_ ?_ ?_) (.cons (hp _ 3 ?_ ?_ ?_ ?_ ?_) .nil)))
    (by simp [Uniform, Ref.form]) (.inr ⟨rfl, by decide⟩)
    (.v (by decide) (.range 99 (by decide) (by decide) (by simp [Overflows]))) (by decide)
  · simp; omega
  · simp; omega
  · rw [tokens_twin_lines (.inr (by decide))]
    exact at_face debug _
  all_goals decide

/-- Three vertices, and a face whose second index is `-1`. -/
example : ∀ r, (Obj.parse debug b!"v 0 0 0\nv 0 0 1\nv 0 1 0\nf 1 -1 2\n" : Out ErrorKind (ObjectSet F)) ≠ .ok r := by
  have e : tokens b!"v 0 0 0\nv 0 0 1\nv 0 1 0\nf 1 -1 2\n" =
    [b!"v", b!"0", b!"0", b!"0", nl, b!"v", b!"0", b!"0", b!"1", nl, b!"v", b!"0", b!"1", b!"0", nl] ++
      [b!"f", b!"1", b!"-1", b!"2", nl] := by decide +kernel
  have hat := at_face debug [b!"f", b!"1", b!"-1", b!"2", nl]
  rw [← e] at hat
  refine C53_nonpositive (by decide) hat (kw := b!"f") (ts := [b!"1"]) (t := b!"-1") (k := -1) rfl
    (.inr (.inr ⟨rfl, by decide, ⟨[⟨1, none, none⟩], .cons ⟨by decide, ?_, ?_, ?_⟩ .nil⟩, by decide⟩)) (by decide)
  · exact .inr ⟨1, by decide, ⟨by decide, by decide, by decide⟩, rfl⟩
  · exact .inl ⟨by decide, rfl⟩
  · exact .inl ⟨by decide, rfl⟩

/-- A carriage return after a vertex. -/
example : ∃ line, (Obj.parse debug b!"v 0 0 0\nv 0 0 1\nv 0 1 0\n\r\n" : Out ErrorKind (ObjectSet F)) =
    .err ⟨line, .InvalidObjectStatement, b!"Unsupported or invalid object statement `\r`."⟩ := by
  have e : tokens b!"v 0 0 0\nv 0 0 1\nv 0 1 0\n\r\n" =
    [b!"v", b!"0", b!"0", b!"0", nl, b!"v", b!"0", b!"0", b!"1", nl, b!"v", b!"0", b!"1", b!"0", nl] ++
      [b!"\r", nl] := by decide +kernel
  have hat := at_face debug [b!"\r", nl]
  rw [← e] at hat
  exact C55_carriage_return (by decide) hat rfl

/-! ## C54 -/

/-- **C54** What the names of a parse result can be. -/
theorem C54_names (hlen : input.length < 2 ^ 63) {r : ObjectSet F} (h : Obj.parse cfg input = .ok r) :
    (∀ n ∈ r.material_libraries, Word n ∨ (n = [13] ∧ 13 ∈ input)) ∧
    ∀ o ∈ r.objects,
      (∀ g ∈ o.group_set, Word g.name ∨ (g.name = [13] ∧ 13 ∈ input)) ∧
      (∀ g ∈ o.geometry_set, ∀ n, g.material_name = some n →
        Word n ∨ (n = [13] ∧ 13 ∈ input) ∨ (n = [10] ∧ [b!"usemtl", nl] <:+: tokens input)) ∧
      (o.name = [] ∨ Word o.name ∨ (o.name = [13] ∧ 13 ∈ input) ∨
        (o.name = [10] ∧ [b!"o", nl, nl] <:+: tokens input)) :=
  C41_names_partial hlen h

/-- **C54** Only the first object can have the empty name, and only if statements of it come
before any `o` statement. -/
theorem C54_empty_name (hlen : input.length < 2 ^ 63) {r : ObjectSet F} (h : Obj.parse cfg input = .ok r)
    {j : Nat} {o : Object F} (ho : r.objects[j]? = some o) (hname : o.name = []) :
    j = 0 ∧ ∃ head t rest, tokens input = head ++ t :: rest ∧ Libs head r.material_libraries [] ∧
      t ≠ nl ∧ t ≠ b!"mtllib" ∧ t ≠ b!"o" := by
  obtain ⟨head, implicit, ss, asts, e, hl, hi, -, hn, -⟩ := C23_objects hlen h
  have hj : (r.objects.map Object.name)[j]? = some [] := by
    rw [List.getElem?_map, ho, Option.map_some, hname]
  rw [hn] at hj
  have hss : ∀ k : Nat, (ss.map Prod.fst)[k]? ≠ some [] := by
    intro k hk
    obtain ⟨s, hs, hs'⟩ := List.mem_map.mp (List.mem_of_getElem? hk)
    have hmem : ([] : Bytes) ∈ tokens input := by
      rw [e, ← hs']
      simp only [List.mem_append, List.mem_flatMap]
      exact .inr (.inr ⟨s, hs, by simp [sectionToks]⟩)
    rcases token_clean hmem with hw | hw | hw
    · exact hw.1 rfl
    · cases hw
    · cases hw
  cases implicit with
  | nil => exact absurd hj (hss j)
  | cons t rest =>
    rw [if_neg (by simp)] at hj
    cases j with
    | zero => exact ⟨rfl, head, t, rest ++ ss.flatMap sectionToks, by simpa using e, hl, hi t rfl⟩
    | succ j => exact absurd (by simpa using hj) (hss j)

example : (Obj.parse debug sample : Out ErrorKind (ObjectSet Bytes)) = .ok sampleResult ∧
    (sampleResult.objects.map Object.name).length = 2 := ⟨sample_parses, by decide +kernel⟩

/-! ## C56 -/

/-- **C56** If no `g` statement of an object is without names, every shape entry of the
object has a group. -/
theorem C56_every_element_has_a_group (hlen : input.length < 2 ^ 63) {r : ObjectSet F}
    (h : Obj.parse cfg input = .ok r) {file : FileAst} (hf : FileOk cfg (tokens input) file) {j : Nat}
    {ast : ObjAst} (ha : file.objects[j]? = some ast) (hg : Item.g [] ∉ ast.items) :
    ∃ o, r.objects[j]? = some o ∧ ∀ e ∈ o.shape_set, e.groups ≠ [] :=
  C45_groups_partial hlen h hf ha hg

end Verif.Props
