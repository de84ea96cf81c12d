import Verif.Props.Samples
import Verif.Proofs.ObjTop
import Verif.Proofs.ObjLines
import Verif.Proofs.ObjUnique

/-!
# Properties C11 (second part), C21, C22, C24, C27, C44, C47: which OBJ files are accepted
-/

namespace Verif.Props

open Verif Verif.Obj Verif.Spec Verif.Spec.Obj

variable {F : Type} [FloatSem F] {cfg : Cfg} {input : Bytes}

/-! ## C27 -/

/-- **C27** `obj::parse` succeeds exactly on the token sequences of the grammar
`Spec.Obj.FileOk`, and then returns what the file denotes (`Spec.Obj.meaning`). -/
theorem C27_language (hlen : input.length < 2 ^ 63) (r : ObjectSet F) :
    Obj.parse cfg input = .ok r ↔ ∃ file, FileOk cfg (tokens input) file ∧ r = meaning file :=
  parse_ok_iff hlen

/-- **C27** The grammar is unambiguous: a text is at most one file. -/
theorem C27_unambiguous {toks : List Tok} {file file' : FileAst} (h : FileOk cfg toks file)
    (h' : FileOk cfg toks file') : file = file' :=
  file_unique h h'

/-- **C27** The rejected texts, with the error reported for each. -/
theorem C27_errors (hlen : input.length < 2 ^ 63) (e : ParseError ErrorKind) :
    (Obj.parse cfg input : Out ErrorKind (ObjectSet F)) = .err e ↔
      ∃ unread, FileErr cfg (tokens input) e.kind e.message unread ∧
        e.line_number = 1 + nls (tokens input) - nls unread :=
  parse_err_iff hlen

/-- **C27** Each object of an accepted file has an element or a `usemtl`. -/
theorem C27_objects_not_bare {toks : List Tok} {file : FileAst} (h : FileOk cfg toks file) :
    ∀ o ∈ file.objects, ∃ it ∈ o.items, it.isElement = true ∨ it.isUsemtl = true := by
  obtain ⟨rest, -, ho⟩ := h
  generalize ({} : Counts) = lo at ho
  generalize file.objects = objs at ho
  induction ho with
  | done => simp
  | obj _ _ hn _ ih =>
    intro o ho
    rcases List.mem_cons.mp ho with rfl | ho
    · simp only [Bare, not_forall, not_and_or, Bool.not_eq_false] at hn
      obtain ⟨it, hit, hn⟩ := hn
      exact ⟨it, hit, hn⟩
    · exact ih o ho

/-- A file with two objects, two libraries, all kinds of statements. -/
example : ∃ file : FileAst, FileOk debug (tokens sample) file ∧ file.libs.length = 2 ∧
    file.objects.length = 2 := by
  obtain ⟨file, h1, h2⟩ := (C27_language sample_length sampleResult).mp sample_parses
  refine ⟨file, h1, ?_, ?_⟩
  · have := congrArg (fun r : ObjectSet Bytes => r.material_libraries.length) h2
    exact this.symm.trans (by decide +kernel)
  · have := congrArg (fun r : ObjectSet Bytes => r.objects.length) h2
    have e : (meaning file : ObjectSet Bytes).objects.length = file.objects.length := objectsMeaning_length _ _
    exact e.symm.trans (this.symm.trans (by decide +kernel))

/-! ## Errors at a statement

`AtStmt cfg (tokens input) lo hi here`: the file is in order up to the tokens `here`, where
a statement is expected; `lo` counts the vertices of earlier objects, `hi` all so far. -/

section
variable {lo hi : Counts} {here : List Tok} (hlen : input.length < 2 ^ 63)
  (hat : AtStmt cfg (tokens input) lo hi here)
include hlen hat

theorem error_at {k m rest} (he : StmtErr cfg lo hi here k m rest) :
    ∃ line, (Obj.parse cfg input : Out ErrorKind (ObjectSet F)) = .err ⟨line, k, m⟩ :=
  ⟨_, parse_err_of hlen (atStmt_err hat he)⟩

theorem panic_at {rest} (he : StmtPanic cfg lo hi here rest) :
    (Obj.parse cfg input : Out ErrorKind (ObjectSet F)) = .panic .indexSubOverflow :=
  parse_panic_of hlen (atStmt_panic hat he)

/-! ## C11 (second part) -/

/-- **C11** A line statement with references of different forms is rejected. -/
theorem C11_mixed_line_rejected {ts refs mid rest} (e : here = b!"l" :: (ts ++ mid))
    (hr : List.Forall₂ (RefTok lo hi) ts refs) (h2 : 2 ≤ refs.length) (hs : Stop cfg lo hi mid rest)
    {a b : Ref} (ha : a ∈ refs) (hb : b ∈ refs) (hab : a.form ≠ b.form) :
    ∃ line, (Obj.parse cfg input : Out ErrorKind (ObjectSet F)) =
      .err ⟨line, .EveryVTNIndexMustHaveTheSameFormForAGivenElement,
        b!"Every VTN index for a line must have the same form."⟩ :=
  error_at hlen hat (e ▸ StmtErr.l_mixed h2 hr (fun hu => hab (hu a ha b hb)) hs)

/-- **C11** A face statement with references of different forms is rejected. -/
theorem C11_mixed_face_rejected {ts refs mid rest} (e : here = b!"f" :: (ts ++ mid))
    (hr : List.Forall₂ (RefTok lo hi) ts refs) (h3 : 3 ≤ refs.length) (hs : Stop cfg lo hi mid rest)
    {a b : Ref} (ha : a ∈ refs) (hb : b ∈ refs) (hab : a.form ≠ b.form) :
    ∃ line, (Obj.parse cfg input : Out ErrorKind (ObjectSet F)) =
      .err ⟨line, .EveryVTNIndexMustHaveTheSameFormForAGivenElement,
        b!"Every VTN index for a face must have the same form."⟩ :=
  error_at hlen hat (e ▸ StmtErr.f_mixed h3 hr (fun hu => hab (hu a ha b hb)) hs)

/-! ## C21 -/

/-- **C21** (points) A point statement with an index out of range, wherever it stands, is
never accepted: the index is reported, unless computing it overflows in a build that
checks for overflow. -/
theorem C21_points {ts : List Tok} {is : List Nat} {t : Tok} {k : Int} {rest : List Tok}
    (e : here = b!"p" :: (ts ++ t :: rest)) (hts : List.Forall₂ (NumTok lo.v hi.v) ts is)
    (hk : parseIsize t = some k) (hbad : k ≤ lo.v ∨ hi.v < k) :
    (∃ line m, (Obj.parse cfg input : Out ErrorKind (ObjectSet F)) = .err ⟨line, .VTNIndexOutOfRange, m⟩) ∨
    (cfg.overflow_checks = true ∧ k ≤ 0 ∧
      (Obj.parse cfg input : Out ErrorKind (ObjectSet F)) = .panic .indexSubOverflow) := by
  by_cases ho : Overflows cfg hi.v k
  · exact .inr ⟨ho.1, ho.2.1, panic_at hlen hat (e ▸ StmtPanic.p (rest := rest) hts ⟨k, hk, ho⟩)⟩
  · left
    have hnl : t = nl → ts = [] := by rintro rfl; simp [show parseIsize nl = none by decide] at hk
    obtain ⟨line, h⟩ := error_at (F := F) hlen hat
      (e ▸ StmtErr.p_bad (rest := rest) hts (.range k hk (by omega) ho) hnl)
    exact ⟨line, _, h⟩

omit hlen hat in
/-- The piece number `i` of a reference is out of range, and the earlier pieces are fine. -/
inductive OutOfRange (cfg : Cfg) (lo hi : Counts) (t : Tok) : Prop
  | v {k : Int} : parseIsize (piece t 0) = some k → k ≤ lo.v ∨ hi.v < k → OutOfRange cfg lo hi t
  | vt {o k} : PieceOk lo.v hi.v (piece t 0) o → parseIsize (piece t 1) = some k →
      k ≤ lo.vt ∨ hi.vt < k → OutOfRange cfg lo hi t
  | vn {o o' k} : PieceOk lo.v hi.v (piece t 0) o → PieceOk lo.vt hi.vt (piece t 1) o' →
      parseIsize (piece t 2) = some k → k ≤ lo.vn ∨ hi.vn < k → OutOfRange cfg lo hi t

omit hlen hat in
theorem parseIsize_nonempty {t : Bytes} {k : Int} (h : parseIsize t = some k) : t ≠ [] := by
  rintro rfl
  simp [show parseIsize [] = none by decide] at h

omit hlen hat in
theorem outOfRange_cases {t : Tok} (h : OutOfRange cfg lo hi t) :
    (∃ m, RefErr cfg lo hi t .VTNIndexOutOfRange m) ∨
    (cfg.overflow_checks = true ∧ RefPanic cfg lo hi t) := by
  cases h with
  | @v k hk hb =>
    by_cases ho : Overflows cfg hi.v k
    · exact .inr ⟨ho.1, .v (parseIsize_nonempty hk) ⟨k, hk, ho⟩⟩
    · exact .inl ⟨_, .v (parseIsize_nonempty hk) (.range k hk (by omega) ho)⟩
  | @vt o k h0 hk hb =>
    by_cases ho : Overflows cfg hi.vt k
    · exact .inr ⟨ho.1, .vt h0 (parseIsize_nonempty hk) ⟨k, hk, ho⟩⟩
    · exact .inl ⟨_, .vt h0 (parseIsize_nonempty hk) (.range k hk (by omega) ho)⟩
  | @vn o o' k h0 h1 hk hb =>
    by_cases ho : Overflows cfg hi.vn k
    · exact .inr ⟨ho.1, .vn h0 h1 (parseIsize_nonempty hk) ⟨k, hk, ho⟩⟩
    · exact .inl ⟨_, .vn h0 h1 (parseIsize_nonempty hk) (.range k hk (by omega) ho)⟩

/-- **C21** (lines, first two references) An out-of-range reference is reported. -/
theorem C21_lines_partial {ts refs t rest} (e : here = b!"l" :: (ts ++ t :: rest))
    (hts : List.Forall₂ (RefTok lo hi) ts refs) (h2 : ts.length < 2) (hbad : OutOfRange cfg lo hi t) :
    (∃ line m, (Obj.parse cfg input : Out ErrorKind (ObjectSet F)) = .err ⟨line, .VTNIndexOutOfRange, m⟩) ∨
    (cfg.overflow_checks = true ∧
      (Obj.parse cfg input : Out ErrorKind (ObjectSet F)) = .panic .indexSubOverflow) := by
  rcases outOfRange_cases hbad with ⟨m, hr⟩ | ⟨hc, hr⟩
  · obtain ⟨line, h⟩ := error_at (F := F) hlen hat (e ▸ StmtErr.l_bad (rest := rest) h2 hts hr)
    exact .inl ⟨line, m, h⟩
  · exact .inr ⟨hc, panic_at hlen hat (e ▸ StmtPanic.l (rest := rest) hts hr)⟩

/-- **C21** (faces, first three references) An out-of-range reference makes the statement
fail, with the message that there are too few vertices. -/
theorem C21_faces_partial {ts refs t rest} (e : here = b!"f" :: (ts ++ t :: rest))
    (hts : List.Forall₂ (RefTok lo hi) ts refs) (h3 : ts.length < 3) (hbad : OutOfRange cfg lo hi t) :
    (∃ line m, (Obj.parse cfg input : Out ErrorKind (ObjectSet F)) =
      .err ⟨line, .EveryFaceElementMustHaveAtLeastThreeVertices, m⟩) ∨
    (cfg.overflow_checks = true ∧
      (Obj.parse cfg input : Out ErrorKind (ObjectSet F)) = .panic .indexSubOverflow) := by
  rcases outOfRange_cases hbad with ⟨m, hr⟩ | ⟨hc, hr⟩
  · obtain ⟨line, h⟩ := error_at (F := F) hlen hat
      (e ▸ StmtErr.f_few (rest := rest) (hts.length_eq ▸ h3) hts (.inl ⟨t, _, m, rfl, hr⟩))
    exact .inl ⟨line, _, h⟩
  · exact .inr ⟨hc, panic_at hlen hat (e ▸ StmtPanic.f (rest := rest) hts hr)⟩

/-! ## C22 -/

/-- **C22** is false: an index that is not positive is never accepted as the first index of
a point, line or face statement. -/
theorem C22_refuted {kw t : Tok} {rest : List Tok} {k : Int} (e : here = kw :: t :: rest)
    (hkw : kw = b!"p" ∨ kw = b!"l" ∨ kw = b!"f") (hk : parseIsize (piece t 0) = some k)
    (hs : kw = b!"p" → piece t 0 = t) (hneg : k ≤ 0) :
    ∀ r, (Obj.parse cfg input : Out ErrorKind (ObjectSet F)) ≠ .ok r := by
  intro r hr
  have hbad : OutOfRange cfg lo hi t := .v hk (.inl (by omega))
  rcases hkw with rfl | rfl | rfl
  · rw [hs rfl] at hk
    rcases C21_points (F := F) hlen hat (ts := []) e .nil hk (.inl (by omega)) with ⟨_, _, h⟩ | ⟨_, _, h⟩ <;>
      rw [hr] at h <;> cases h
  · rcases C21_lines_partial (F := F) hlen hat (ts := []) e .nil (by simp) hbad with ⟨_, _, h⟩ | ⟨_, h⟩ <;>
      rw [hr] at h <;> cases h
  · rcases C21_faces_partial (F := F) hlen hat (ts := []) e .nil (by simp) hbad with ⟨_, _, h⟩ | ⟨_, h⟩ <;>
      rw [hr] at h <;> cases h

/-! ## C44 -/

/-- **C44** is false: a carriage return after a complete statement (other than `g`, `p`,
`l`, `f`) is taken for a statement of its own, and rejected. -/
theorem C44_rejected {rest : List Tok} (e : here = [13] :: rest) :
    ∃ line, (Obj.parse cfg input : Out ErrorKind (ObjectSet F)) =
      .err ⟨line, .InvalidObjectStatement, b!"Unsupported or invalid object statement `\r`."⟩ :=
  error_at hlen hat (e ▸ StmtErr.unknown (rest := rest) (by decide))

end

/-- After three vertices, at a face statement. -/
theorem at_face (cfg : Cfg) (rest : List Tok) :
    AtStmt cfg ([b!"v", b!"0", b!"0", b!"0", nl, b!"v", b!"0", b!"0", b!"1", nl,
      b!"v", b!"0", b!"1", b!"0", nl] ++ rest) {} ⟨3, 0, 0⟩ rest := by
  have nf : ∀ l, NoFloat (nl :: l) := by
    intro l t ht
    simp only [List.head?_cons, Option.mem_def, Option.some.injEq] at ht
    subst ht
    decide
  exact ⟨[], _, .done (by simp [nl]) (by simp), .this (.implicit (by decide))
    (.stmt (.v3 (by decide) (by decide) (by decide) (nf _)) (.blank
    (.stmt (.v3 (by decide) (by decide) (by decide) (nf _)) (.blank
    (.stmt (.v3 (by decide) (by decide) (by decide) (nf _)) (.blank .here))))))⟩

/-- The theorems above apply to a file with three vertices and a faulty statement. -/
example : (∃ line, Obj.parse debug b!"v 0 0 0\nv 0 0 1\nv 0 1 0\nf 1 2 3 7\nf 1 2 3/1\n" =
      (.err ⟨line, .EveryFaceElementMustHaveAtLeastThreeVertices,
        b!"A face primitive must have at least three vertices."⟩ : Out ErrorKind (ObjectSet Bytes))) ∧
    (∃ line, Obj.parse debug b!"v 0 0 0\nv 0 0 1\nv 0 1 0\np 2 4 1\n" =
      (.err ⟨line, .VTNIndexOutOfRange,
        b!"Expected index in range [0, 3), but got 3."⟩ : Out ErrorKind (ObjectSet Bytes))) ∧
    (∃ line, Obj.parse debug b!"v 0 0 0\nv 0 0 1\nvn 1 2 3\nl 1 2//1\n" =
      (.err ⟨line, .EveryVTNIndexMustHaveTheSameFormForAGivenElement,
        b!"Every VTN index for a line must have the same form."⟩ : Out ErrorKind (ObjectSet Bytes))) :=
  ⟨⟨5, by decide +kernel⟩, ⟨4, by decide +kernel⟩, ⟨5, by decide +kernel⟩⟩

example : ∃ line m, (Obj.parse debug b!"v 0 0 0\nv 0 0 1\nv 0 1 0\np 2 4 1\n" : Out ErrorKind (ObjectSet F)) =
    .err ⟨line, .VTNIndexOutOfRange, m⟩ := by
  have e : tokens b!"v 0 0 0\nv 0 0 1\nv 0 1 0\np 2 4 1\n" =
    [b!"v", b!"0", b!"0", b!"0", nl, b!"v", b!"0", b!"0", b!"1", nl, b!"v", b!"0", b!"1", b!"0", nl] ++
      [b!"p", b!"2", b!"4", b!"1", nl] := by decide +kernel
  have hat := at_face debug [b!"p", b!"2", b!"4", b!"1", nl]
  rw [← e] at hat
  rcases C21_points (F := F) (by decide) hat (ts := [b!"2"]) (is := [2]) (k := 4) rfl
    (.cons ⟨by decide, by decide, by decide⟩ .nil) (by decide) (by decide) with h | ⟨_, h, _⟩
  · exact h
  · cases h

/-- **C21** is false: after three good references of a face the first faulty one is swallowed
together with the rest of the statement being forgotten. -/
theorem C21_refuted : ∃ r : ObjectSet Bytes, Obj.parse debug b!"v 0 0 0\nv 0 0 1\nv 0 1 0\nf 1 2 3 99\n" = .ok r ∧
    Obj.parse release b!"v 0 0 0\nv 0 0 1\nv 0 1 0\nf 1 2 3 99\n" = .ok r ∧
    Obj.parse debug b!"v 0 0 0\nv 0 0 1\nv 0 1 0\nf 1 2 3\n" = .ok r :=
  ⟨⟨[], [⟨[], [⟨b!"0", b!"0", b!"0", b!"1"⟩, ⟨b!"0", b!"0", b!"1", b!"1"⟩, ⟨b!"0", b!"1", b!"0", b!"1"⟩],
    [], [], [⟨b!"default"⟩], [⟨0⟩], [.Face (.V 0) (.V 1) (.V 2)], [⟨0, [0], 0⟩], [⟨none, [0]⟩]⟩]⟩,
    by decide +kernel⟩

/-- **C21** (why, in general) After three (two) uniform references of a face (line) any
token that is not a reference, however faulty, ends the statement without an error. -/
theorem C21_swallowed {lo hi : Counts} {ts : List Tok} {refs : List Ref} {t : Tok} {k m} {rest : List Tok}
    (hr : List.Forall₂ (RefTok lo hi) ts refs) (hu : Uniform refs) (ht : RefErr cfg lo hi t k m) :
    (3 ≤ refs.length → Stmt cfg lo hi (.f refs) (b!"f" :: (ts ++ t :: rest)) rest) ∧
    (2 ≤ refs.length → Stmt cfg lo hi (.l refs) (b!"l" :: (ts ++ t :: rest)) rest) :=
  ⟨fun h => .f h hr hu (.inl ⟨t, k, m, rfl, ht⟩), fun h => .l h hr hu (.inl ⟨t, k, m, rfl, ht⟩)⟩

/-- **C22** (concrete) The most recent vertex cannot be referred to as `-1`. -/
example : Obj.parse debug b!"v 0 0 0\np -1\n" =
    (.err ⟨2, .VTNIndexOutOfRange, b!"Expected index in range [0, 1), but got 2."⟩ :
      Out ErrorKind (ObjectSet Bytes)) := by decide +kernel

/-- Every LF replaced by CR LF. -/
def toCRLF (text : Bytes) : Bytes := text.flatMap fun c => if c = 10 then [13, 10] else [c]

/-- **C44** is false: an accepted file whose CRLF version is rejected, and one whose CRLF
version is accepted with a different meaning. -/
theorem C44_refuted :
    (∃ r : ObjectSet Bytes, Obj.parse debug b!"v 0 0 0\np 1\n" = .ok r) ∧
    Obj.parse debug (toCRLF b!"v 0 0 0\np 1\n") =
      (.err ⟨1, .InvalidObjectStatement, b!"Unsupported or invalid object statement `\r`."⟩ :
        Out ErrorKind (ObjectSet Bytes)) ∧
    Obj.parse debug (toCRLF b!"mtllib a\n") = .ok (⟨[b!"a", b!"\r"], []⟩ : ObjectSet Bytes) ∧
    Obj.parse debug b!"mtllib a\n" = .ok (⟨[b!"a"], []⟩ : ObjectSet Bytes) :=
  ⟨⟨⟨[], [⟨[], [⟨b!"0", b!"0", b!"0", b!"1"⟩], [], [], [⟨b!"default"⟩], [⟨0⟩], [.Point (.V 0)],
    [⟨0, [0], 0⟩], [⟨none, [0]⟩]⟩]⟩, by decide +kernel⟩, by decide +kernel⟩

/-! ## C24 -/

/-- The lines of a token sequence. -/
def tokenLines : List Tok → List (List Tok)
  | [] => [[]]
  | t :: ts =>
    if t = nl then [] :: tokenLines ts
    else
      match tokenLines ts with
      | [] => [[t]]
      | l :: ls => (t :: l) :: ls

/-- A blank line or an `mtllib` line. -/
def IsHeadLine (l : List Tok) : Prop := l = [] ∨ l.head? = some b!"mtllib"

instance (l : List Tok) : Decidable (IsHeadLine l) := inferInstanceAs (Decidable (_ ∨ _))

/-- The names on the `mtllib` lines before the first other line. -/
def libNames (toks : List Tok) : List Bytes :=
  ((tokenLines toks).takeWhile fun l => IsHeadLine l).flatMap List.tail

theorem tokenLines_names {names : List Tok} (h : nl ∉ names) (t : Tok) (ht : t ≠ nl) (rest : List Tok) :
    tokenLines (t :: (names ++ nl :: rest)) = (t :: names) :: tokenLines rest ∧
    tokenLines (t :: names) = [t :: names] := by
  induction names generalizing t with
  | nil => simp [tokenLines, ht]
  | cons n names ih =>
    simp only [List.mem_cons, not_or] at h
    obtain ⟨h1, h2⟩ := ih h.2 n (Ne.symm h.1)
    constructor
    · rw [List.cons_append, tokenLines, if_neg ht, h1]
    · rw [tokenLines, if_neg ht, h2]

theorem tokenLines_cons (t : Tok) (ht : t ≠ nl) (ts : List Tok) :
    ∃ l ls, tokenLines (t :: ts) = (t :: l) :: ls := by
  rw [tokenLines, if_neg ht]
  cases tokenLines ts with
  | nil => exact ⟨[], [], rfl⟩
  | cons l ls => exact ⟨l, ls, rfl⟩

theorem libs_names {toks libs rest} (h : Libs toks libs rest) : libs = libNames toks := by
  induction h with
  | @done toks h1 h2 =>
    cases toks with
    | nil => decide
    | cons t ts =>
      simp only [List.head?_cons, ne_eq, Option.some.injEq] at h1 h2
      obtain ⟨l, ls, e⟩ := tokenLines_cons t h1 ts
      rw [libNames, e, List.takeWhile_cons, if_neg (by simpa [IsHeadLine] using h2)]
      rfl
  | @blank toks libs rest _ ih =>
    rw [libNames, tokenLines, if_pos rfl, List.takeWhile_cons, if_pos (by simp [IsHeadLine])]
    simpa [libNames] using ih
  | @line names mid toks libs rest h1 h2 h3 ih =>
    obtain ⟨e1, e2⟩ := tokenLines_names h1 b!"mtllib" (by decide) toks
    rcases h2 with rfl | ⟨rfl, rfl⟩
    · rw [libNames, e1, List.takeWhile_cons, if_pos (by simp [IsHeadLine]), ih]
      simp [libNames]
    · rw [List.append_nil, libNames, e2, List.takeWhile_cons, if_pos (by simp [IsHeadLine]), ih]
      have e0 : libNames [] = [] := by decide
      simp [e0]

/-- **C24** `material_libraries` lists the names on the `mtllib` lines at the head of the file. -/
theorem C24_libraries (hlen : input.length < 2 ^ 63) {r : ObjectSet F} (h : Obj.parse cfg input = .ok r) :
    r.material_libraries = libNames (tokens input) := by
  obtain ⟨file, ⟨rest, hl, -⟩, rfl⟩ := (parse_ok_iff hlen).mp h
  exact libs_names hl

example : libNames (tokens b!"# head\nmtllib a.mtl b.mtl\n\n mtllib c # d\nv 0 0 0\np 1\n") =
    [b!"a.mtl", b!"b.mtl", b!"c"] := by decide +kernel

theorem late_lib {A X : List Tok} {libs objs toks rest} (hl : Libs toks libs rest)
    (ho : Objects cfg {} objs rest) (e : toks = A ++ nl :: b!"mtllib" :: X) :
    ∀ l ∈ tokenLines A, IsHeadLine l := by
  induction hl generalizing A with
  | done => exact absurd e (objects_line ho (by decide))
  | @blank toks libs rest _ ih =>
    cases A with
    | nil => simp [tokenLines, IsHeadLine]
    | cons a A =>
      simp only [List.cons_append, List.cons.injEq] at e
      obtain ⟨rfl, e⟩ := e
      rw [tokenLines, if_pos rfl]
      intro l hl
      rcases List.mem_cons.mp hl with rfl | hl
      · exact .inl rfl
      · exact ih ho e l hl
  | @line names mid toks libs rest h1 h2 h3 ih =>
    cases A with
    | nil => simp at e
    | cons a A =>
      simp only [List.cons_append, List.cons.injEq] at e
      obtain ⟨rfl, e⟩ := e
      rcases h2 with rfl | ⟨rfl, rfl⟩
      · obtain ⟨e1, e2⟩ := tokenLines_names h1 b!"mtllib" (by decide) toks
        rcases append_eq_cons_cases h1 e with ⟨rfl, -, rfl⟩ | ⟨A', rfl⟩
        · rw [e2]
          simp [IsHeadLine]
        · have hA : A = names ++ nl :: A' := by
            have : (names ++ nl :: A') ++ nl :: b!"mtllib" :: X = A ++ nl :: b!"mtllib" :: X := by
              simpa using e
            exact (List.append_cancel_right this).symm
          subst hA
          rw [(tokenLines_names h1 b!"mtllib" (by decide) A').1]
          intro l hl
          rcases List.mem_cons.mp hl with rfl | hl
          · exact .inr rfl
          · exact ih ho rfl l hl
      · rw [List.append_nil] at e
        exact absurd (by rw [e]; simp) h1

/-- **C24** A line starting with `mtllib` is only accepted at the head of the file: all
lines before it are blank or `mtllib` lines. -/
theorem C24_late_rejected {a b : Bytes} (hlen : (a ++ 10 :: b).length < 2 ^ 63)
    (hb : (tokens b).head? = some b!"mtllib") {r : ObjectSet F}
    (h : Obj.parse cfg (a ++ 10 :: b) = .ok r) :
    ∀ l ∈ tokenLines (tokens a), IsHeadLine l := by
  obtain ⟨file, ⟨rest, hl, ho⟩, -⟩ := (parse_ok_iff hlen).mp h
  obtain ⟨X, hX⟩ : ∃ X, tokens b = b!"mtllib" :: X := by
    cases hx : tokens b with
    | nil => rw [hx] at hb; cases hb
    | cons t X =>
      rw [hx] at hb
      simp only [List.head?_cons, Option.some.injEq] at hb
      exact ⟨X, by rw [hb]⟩
  exact late_lib hl ho (by rw [tokens_append_nl, hX])

example : Obj.parse debug b!"v 0 0 0\np 1\nmtllib a\n" =
    (.err ⟨3, .InvalidObjectStatement, b!"Unsupported or invalid object statement `mtllib`."⟩ :
      Out ErrorKind (ObjectSet Bytes)) := by decide +kernel
example : Obj.parse debug (b!"\nmtllib b" ++ 10 :: b!"mtllib a\n") = .ok (⟨[b!"b", b!"a"], []⟩ : ObjectSet Bytes) := by
  decide +kernel

/-! ## C47 -/

/-- **C47** A line that starts with anything but one of the ten keywords and `mtllib`
makes `obj::parse` fail, wherever in the file it is. -/
theorem C47_unknown_line_rejected {a b : Bytes} (hlen : (a ++ 10 :: b).length < 2 ^ 63) {t : Tok}
    (hb : (tokens b).head? = some t)
    (ht : t ∉ [b!"v", b!"vt", b!"vn", b!"g", b!"s", b!"usemtl", b!"p", b!"l", b!"f", b!"o", b!"mtllib", nl]) :
    ∀ r, (Obj.parse cfg (a ++ 10 :: b) : Out ErrorKind (ObjectSet F)) ≠ .ok r := by
  intro r h
  obtain ⟨file, ⟨rest, hl, ho⟩, -⟩ := (parse_ok_iff hlen).mp h
  obtain ⟨X, hX⟩ : ∃ X, tokens b = t :: X := by
    cases hx : tokens b with
    | nil => rw [hx] at hb; cases hb
    | cons t' X =>
      rw [hx] at hb
      simp only [List.head?_cons, Option.some.injEq] at hb
      exact ⟨X, by rw [hb]⟩
  rw [tokens_append_nl, hX] at hl
  have htk : t ∉ keywords := fun h => ht (by
    have : ∀ x ∈ keywords, x ∈ [b!"v", b!"vt", b!"vn", b!"g", b!"s", b!"usemtl", b!"p", b!"l", b!"f", b!"o",
      b!"mtllib", nl] := by decide
    exact this t h)
  have hto : t ≠ b!"o" := by rintro rfl; exact ht (by decide)
  have htn : t ≠ nl := by rintro rfl; exact ht (by decide)
  have htm : t ≠ b!"mtllib" := by rintro rfl; exact ht (by decide)
  have hhead : ∀ {rest}, ¬ Objects cfg {} file.objects (t :: rest) := by
    intro rest ho
    generalize file.objects = objs at ho
    cases ho with
    | obj hh hb =>
      cases hh with
      | implicit =>
        cases hb with
        | done h =>
          rcases h with h | h
          · cases h
          · simp only [List.head?_cons, Option.some.injEq] at h; exact hto h
        | blank => exact htn rfl
        | stmt h =>
          obtain ⟨t', tl, e, -, -, h1⟩ := Stmt.head h
          simp only [List.cons.injEq] at e
          rw [← e.1] at h1
          exact htk h1
      | named => exact hto rfl
  generalize e : tokens a ++ nl :: t :: X = toks at hl
  generalize file.libs = libs at hl
  generalize tokens a = A at e
  induction hl generalizing A with
  | done => exact objects_line ho htk e.symm
  | @blank toks libs rest hl ih =>
    cases A with
    | nil =>
      simp only [List.nil_append, List.cons.injEq, true_and] at e
      subst e
      cases hl with
      | done => exact hhead ho
      | blank => exact htn rfl
      | line => exact htm rfl
    | cons a A =>
      simp only [List.cons_append, List.cons.injEq] at e
      exact ih ho A e.2
  | @line names mid toks libs rest h1 h2 h3 ih =>
    cases A with
    | nil => simp at e
    | cons a A =>
      simp only [List.cons_append, List.cons.injEq] at e
      obtain ⟨rfl, e⟩ := e
      rcases h2 with rfl | ⟨rfl, rfl⟩
      · rcases append_eq_cons_cases h1 e.symm with ⟨rfl, -, rfl⟩ | ⟨A', rfl⟩
        · cases h3 with
          | done => exact hhead ho
          | blank => exact htn rfl
          | line => exact htm rfl
        · exact ih ho A' rfl
      · rw [List.append_nil] at e
        exact absurd (by rw [← e]; simp) h1

/-- **C47** On the first line this is the error reported. -/
theorem C47_first_line_rejected (hlen : input.length < 2 ^ 63) {t : Tok} (hb : (tokens input).head? = some t)
    (ht : t ∉ [b!"v", b!"vt", b!"vn", b!"g", b!"s", b!"usemtl", b!"p", b!"l", b!"f", b!"o", b!"mtllib", nl]) :
    (Obj.parse cfg input : Out ErrorKind (ObjectSet F)) =
      .err ⟨1, .InvalidObjectStatement, b!"Unsupported or invalid object statement `" ++ t ++ b!"`."⟩ := by
  obtain ⟨X, hX⟩ : ∃ X, tokens input = t :: X := by
    cases hx : tokens input with
    | nil => rw [hx] at hb; cases hb
    | cons t' X =>
      rw [hx] at hb
      simp only [List.head?_cons, Option.some.injEq] at hb
      exact ⟨X, by rw [hb]⟩
  have htk : t ∉ keywords := fun h => ht (by
    have : ∀ x ∈ keywords, x ∈ [b!"v", b!"vt", b!"vn", b!"g", b!"s", b!"usemtl", b!"p", b!"l", b!"f", b!"o",
      b!"mtllib", nl] := by decide
    exact this t h)
  have hto : t ≠ b!"o" := by rintro rfl; exact ht (by decide)
  have htn : t ≠ nl := by rintro rfl; exact ht (by decide)
  have htm : t ≠ b!"mtllib" := by rintro rfl; exact ht (by decide)
  have hf : FileErr cfg (tokens input) .InvalidObjectStatement (unknownText t) (tokens input) := by
    rw [hX]
    exact ⟨[], _, .done (by simpa using htn) (by simpa using htm), .body (.implicit hto) (.here (.unknown htk))⟩
  rw [parse_err_of hlen hf]
  simp [unknownText]

example : (tokens b!"  surf 1\nv 0 0 0\n").head? = some b!"surf" := by decide +kernel

end Verif.Props
