import Verif.Proofs.Doc
import Verif.Props.Samples
import Verif.Props.Lexing

/-!
# Properties C64–C67: what the documentation promises

`GRAMMAR.md` says that the parser implements its grammar, `README.md` that files with free-form
geometry are rejected, and the doc comment of `Lexer::current_line_number` what it counts.
-/

namespace Verif.Props

open Verif Verif.Spec

variable {F : Type} [FloatSem F] {cfg : Obj.Cfg} {input : Bytes}

/-! ## Lines of a text -/

/-- The lines of a text, without their line feeds. -/
def textLines (input : Bytes) : List Bytes := splitByte 10 input

theorem splitByte_first {x : UInt8} (input : Bytes) :
    (splitByte x input = [input] ∧ ∀ c ∈ input, c ≠ x) ∨
      ∃ a b, input = a ++ x :: b ∧ (∀ c ∈ a, c ≠ x) ∧ splitByte x input = a :: splitByte x b := by
  induction input with
  | nil => exact .inl ⟨rfl, by simp⟩
  | cons c s ih =>
    by_cases hc : c = x
    · exact .inr ⟨[], s, by simp [hc], by simp, by simp [splitByte, hc]⟩
    · rcases ih with ⟨h1, h2⟩ | ⟨a, b, rfl, h2, h3⟩
      · exact .inl ⟨by rw [splitByte, if_neg hc, h1], by
          intro d hd
          rcases List.mem_cons.mp hd with rfl | hd
          · exact hc
          · exact h2 d hd⟩
      · refine .inr ⟨c :: a, b, rfl, ?_, by rw [splitByte, if_neg hc, h3]⟩
        intro d hd
        rcases List.mem_cons.mp hd with rfl | hd
        · exact hc
        · exact h2 d hd

theorem nl_not_mem_tokens {a : Bytes} (h : ∀ c ∈ a, c ≠ 10) : nl ∉ tokens a := by
  intro hm
  obtain ⟨pre, post, e⟩ := List.append_of_mem hm
  obtain ⟨p, q, hx, -⟩ := C01_token_position e
  exact h 10 (by rw [hx]; simp) rfl

theorem tokenLines_append {a b : List Tok} (h : nl ∉ a) :
    tokenLines (a ++ nl :: b) = a :: tokenLines b ∧ tokenLines a = [a] := by
  cases a with
  | nil => exact ⟨by simp [tokenLines], rfl⟩
  | cons t a =>
    simp only [List.mem_cons, not_or] at h
    exact tokenLines_names h.2 t (Ne.symm h.1) b

/-- The lines of the tokens are the tokens of the lines. -/
theorem tokenLines_tokens (input : Bytes) : tokenLines (tokens input) = (textLines input).map tokens := by
  generalize hn : input.length = n
  induction n using Nat.strongRecOn generalizing input with
  | ind n ih =>
    unfold textLines
    rcases splitByte_first (x := 10) input with ⟨h1, h2⟩ | ⟨a, b, rfl, h2, h3⟩
    · rw [h1, (tokenLines_append (b := []) (nl_not_mem_tokens h2)).2]
      rfl
    · rw [h3, tokens_append_nl, (tokenLines_append (nl_not_mem_tokens h2)).1,
        ih b.length (by simp at hn; omega) b rfl]
      rfl

/-! ## C64 -/

/-- **C64** A text whose lines, broken into tokens, are those of a file of the OBJ grammar of
`GRAMMAR.md` (as transcribed in `Spec.Doc.ObjFile`: without `vp`, with indices that count what
the object has defined, no object without elements and material) is accepted, and the result
is what that file denotes. -/
theorem C64_documented_obj (hlen : input.length < 2 ^ 63) {file : Spec.Obj.FileAst}
    (h : Doc.ObjFile ((textLines input).map tokens) file) :
    Obj.parse cfg input = .ok (Spec.Obj.meaning file : Obj.ObjectSet F) := by
  rw [← tokenLines_tokens] at h
  have := length_tokens_le input
  exact Obj.parse_ok_of hlen (Doc.file_lines cfg h (.inr rfl) (by omega))

/-- A text in the documented grammar: comments, blank lines, two objects, the second with
indices that go on counting, no line feed at the end. -/
def documented : Bytes := b!"# a comment\nmtllib a.mtl b.mtl\n\nv 0.0 1.0 -2.5 # x\nv 1.0 0.0 0.0\nv 00.00 -0.0 1.5\nvt 0.5\nvn 0.0 0.0 1.0\ng a b\ns 1\n\nusemtl m\nf 1/1 2/1 003/1\nf 1//1 2//1 3//1\no next\n\nv 0.0 0.0 0.0\nv 1.0 1.0 1.0 1.0\ns off\np 4 5\nl 4 5"

def documentedFile : Spec.Obj.FileAst :=
  ⟨[b!"a.mtl", b!"b.mtl"],
    [⟨[], [.v b!"0.0" b!"1.0" b!"-2.5" none, .v b!"1.0" b!"0.0" b!"0.0" none,
        .v b!"00.00" b!"-0.0" b!"1.5" none, .vt b!"0.5" none none, .vn b!"0.0" b!"0.0" b!"1.0",
        .g [b!"a", b!"b"], .s 1, .usemtl b!"m",
        .f [⟨1, some 1, none⟩, ⟨2, some 1, none⟩, ⟨3, some 1, none⟩],
        .f [⟨1, none, some 1⟩, ⟨2, none, some 1⟩, ⟨3, none, some 1⟩]]⟩,
      ⟨b!"next", [.v b!"0.0" b!"0.0" b!"0.0" none, .v b!"1.0" b!"1.0" b!"1.0" (some b!"1.0"), .s 0,
        .p [4, 5], .l [⟨4, none, none⟩, ⟨5, none, none⟩]]⟩]⟩

theorem documented_lines : (textLines documented).map tokens =
    [[], [b!"mtllib", b!"a.mtl", b!"b.mtl"], [], [b!"v", b!"0.0", b!"1.0", b!"-2.5"],
      [b!"v", b!"1.0", b!"0.0", b!"0.0"], [b!"v", b!"00.00", b!"-0.0", b!"1.5"], [b!"vt", b!"0.5"],
      [b!"vn", b!"0.0", b!"0.0", b!"1.0"], [b!"g", b!"a", b!"b"], [b!"s", b!"1"], [], [b!"usemtl", b!"m"],
      [b!"f", b!"1/1", b!"2/1", b!"003/1"], [b!"f", b!"1//1", b!"2//1", b!"3//1"], [b!"o", b!"next"], [],
      [b!"v", b!"0.0", b!"0.0", b!"0.0"], [b!"v", b!"1.0", b!"1.0", b!"1.0", b!"1.0"], [b!"s", b!"off"],
      [b!"p", b!"4", b!"5"], [b!"l", b!"4", b!"5"]] := by decide +kernel

theorem float_of (a b : Bytes) (ha : a ≠ [] ∧ ∀ c ∈ a, 48 ≤ c ∧ c ≤ 57) (hb : b ≠ [] ∧ ∀ c ∈ b, 48 ≤ c ∧ c ≤ 57) :
    Doc.Float (a ++ b!"." ++ b) ∧ Doc.Float (b!"-" ++ a ++ b!"." ++ b) :=
  ⟨⟨a, b, rfl, .inl ha, hb⟩, ⟨b!"-" ++ a, b, by simp, .inr ⟨a, rfl, ha⟩, hb⟩⟩

theorem documented_documented : Doc.ObjFile ((textLines documented).map tokens) documentedFile := by
  have f0 := float_of b!"0" b!"0" (by decide) (by decide)
  have f1 := float_of b!"1" b!"0" (by decide) (by decide)
  have f2 := float_of b!"2" b!"5" (by decide) (by decide)
  have f3 := float_of b!"1" b!"5" (by decide) (by decide)
  have f4 := float_of b!"0" b!"5" (by decide) (by decide)
  have f5 := float_of b!"00" b!"00" (by decide) (by decide)
  have d : Decimal b!"1" 1 ∧ Decimal b!"2" 2 ∧ Decimal b!"003" 3 ∧ Decimal b!"3" 3 ∧ Decimal b!"4" 4 ∧
      Decimal b!"5" 5 := by
    unfold Decimal; decide +kernel
  obtain ⟨d1, d2, d3', d3, d4, d5⟩ := d
  rw [documented_lines]
  refine .blank (.mtllib (names := [b!"a.mtl", b!"b.mtl"]) (libs := []) (.blank (.objects ?_)))
  refine .body (body := [_, _, _, _, _, _, _, _, _, _, _])
    (.line (.v3 f0.1 f1.1 f2.2) (.line (.v3 f1.1 f0.1 f0.1) (.line (.v3 f5.1 f0.2 f3.1) (.line (.vt1 f4.1)
      (.line (.vn f0.1 f0.1 f1.1) (.line .g (.line (.s d1 (by decide)) (.blank (.line .usemtl (.line
        (.f (by decide) ?_ (by unfold Spec.Obj.Uniform; decide))
        (.line (.f (by decide) ?_ (by unfold Spec.Obj.Uniform; decide)) .done)))))))))))
    ⟨.usemtl b!"m", by decide, by decide⟩
    (.obj (body := [_, _, _, _, _, _]) (rest := []) (.blank (.line (.v3 f0.1 f0.1 f0.1) (.line (.v4 f1.1 f1.1 f1.1 f1.1)
      (.line .off (.line (.p (by decide) ?_) (.line (.l (by decide) ?_ (by unfold Spec.Obj.Uniform; decide)) .done))))))
      ⟨.p [4, 5], by decide, by decide⟩ .done)
  · exact .cons (.vt (a := b!"1") (b := b!"1") ⟨d1, by decide, by decide⟩ ⟨d1, by decide, by decide⟩)
      (.cons (.vt (a := b!"2") (b := b!"1") ⟨d2, by decide, by decide⟩ ⟨d1, by decide, by decide⟩)
      (.cons (.vt (a := b!"003") (b := b!"1") ⟨d3', by decide, by decide⟩ ⟨d1, by decide, by decide⟩) .nil))
  · exact .cons (.vn (a := b!"1") (c := b!"1") ⟨d1, by decide, by decide⟩ ⟨d1, by decide, by decide⟩)
      (.cons (.vn (a := b!"2") (c := b!"1") ⟨d2, by decide, by decide⟩ ⟨d1, by decide, by decide⟩)
      (.cons (.vn (a := b!"3") (c := b!"1") ⟨d3, by decide, by decide⟩ ⟨d1, by decide, by decide⟩) .nil))
  · exact .cons ⟨d4, by decide, by decide⟩ (.cons ⟨d5, by decide, by decide⟩ .nil)
  · exact .cons (.v ⟨d4, by decide, by decide⟩) (.cons (.v ⟨d5, by decide, by decide⟩) .nil)

example : Obj.parse debug documented = .ok (Spec.Obj.meaning documentedFile : Obj.ObjectSet Bytes) :=
  C64_documented_obj (by decide +kernel) documented_documented

/-- Documented, and not accepted: `vp` (`GRAMMAR.md:41`), numbers with a sign (`GRAMMAR.md:36`),
an object without elements (`GRAMMAR.md:59`). -/
example : Obj.parse debug b!"vp 0.5\nv 0.0 0.0 0.0\np 1\n" =
      (.err ⟨1, .InvalidObjectStatement, b!"Unsupported or invalid object statement `vp`."⟩ :
        Out Obj.ErrorKind (Obj.ObjectSet Bytes)) ∧
    Obj.parse debug b!"v 0.0 0.0 0.0\np -1\n" =
      (.err ⟨2, .VTNIndexOutOfRange, b!"Expected index in range [0, 1), but got 2."⟩ :
        Out Obj.ErrorKind (Obj.ObjectSet Bytes)) ∧
    Obj.parse debug b!"o a\nv 0.0 0.0 0.0\n" =
      (.panic .materialIndex : Out Obj.ErrorKind (Obj.ObjectSet Bytes)) := by decide +kernel

/-! ## C65 -/

/-- **C65** A text whose lines, broken into tokens, are those of a file of the MTL grammar of
`GRAMMAR.md` (as transcribed in `Spec.Doc.MtlFile`: without `Tf`, with illumination models 0,
1 and 2) is accepted, and the result is what that file denotes. -/
theorem C65_documented_mtl {mats : List Spec.Mtl.MatAst}
    (h : Doc.MtlFile ((textLines input).map tokens) mats) :
    Mtl.parse input = .ok (Spec.Mtl.meaning mats : Mtl.MaterialSet F) := by
  rw [← tokenLines_tokens] at h
  exact Mtl.parse_ok_iff.mpr ⟨mats, Doc.mtlFile_lines h (.inr rfl), rfl⟩

def documentedMtl : Bytes := b!"\n# materials\nnewmtl a\nKa 0.5 0.5 0.0\n\nd 0.25\nillum 01\nmap_Kd a.png\nnewmtl b"

theorem documentedMtl_documented : Doc.MtlFile ((textLines documentedMtl).map tokens)
    [⟨b!"a", [.color .ambient b!"0.5" b!"0.5" b!"0.0", .num .dissolve b!"0.25", .illum .AmbientDiffuse,
      .map .diffuse b!"a.png"]⟩, ⟨b!"b", []⟩] := by
  have f0 := float_of b!"0" b!"0" (by decide) (by decide)
  have f1 := float_of b!"0" b!"5" (by decide) (by decide)
  have f2 := float_of b!"0" b!"25" (by decide) (by decide)
  have d : Decimal b!"01" 1 := by unfold Decimal; decide +kernel
  rw [show (textLines documentedMtl).map tokens = [[], [], [b!"newmtl", b!"a"], [b!"Ka", b!"0.5", b!"0.5", b!"0.0"],
    [], [b!"d", b!"0.25"], [b!"illum", b!"01"], [b!"map_Kd", b!"a.png"], [b!"newmtl", b!"b"]] from by decide +kernel]
  refine .blank (.blank (.mats (.mat (body := [_, _, _, _, _]) ?_ (.mat (body := []) (rest := []) .done .done))))
  exact .line (.color (s := .ambient) f1.1 f1.1 f0.1) (.blank (.line (.num (s := .dissolve) f2.1)
    (.line (.illum (model := .AmbientDiffuse) d) (.line (.map (s := .diffuse) (by decide)) .done))))

example : Mtl.parse documentedMtl = .ok (Spec.Mtl.meaning
    [⟨b!"a", [.color .ambient b!"0.5" b!"0.5" b!"0.0", .num .dissolve b!"0.25", .illum .AmbientDiffuse,
      .map .diffuse b!"a.png"]⟩, ⟨b!"b", []⟩] : Mtl.MaterialSet Bytes) :=
  C65_documented_mtl documentedMtl_documented

/-- Documented, and not accepted: `Tf` (`GRAMMAR.md:113`), other illumination models
(`GRAMMAR.md:114`). -/
example : Mtl.parse b!"newmtl a\nTf 0.5 0.5 0.5\n" =
      (.err ⟨2, .ErrorParsingMaterial, b!"Could not parse the token `Tf`."⟩ :
        Out Mtl.ErrorKind (Mtl.MaterialSet Bytes)) ∧
    Mtl.parse b!"newmtl a\nillum 3\n" =
      (.err ⟨2, .UnknownIlluminationModel, b!"Unknown illumination model: 3."⟩ :
        Out Mtl.ErrorKind (Mtl.MaterialSet Bytes)) := by decide +kernel

/-! ## C66 -/

/-- The keywords of free-form curves and surfaces of the OBJ format specification
(`docs/obj_spec.pdf`), including the superseded ones. -/
def freeForm : List Tok :=
  [b!"vp", b!"cstype", b!"deg", b!"bmat", b!"step", b!"curv", b!"curv2", b!"surf", b!"parm", b!"trim",
    b!"hole", b!"scrv", b!"sp", b!"end", b!"con", b!"mg", b!"ctech", b!"stech", b!"bsp", b!"bzp", b!"cdc",
    b!"cdp", b!"res"]

theorem mem_splitByte {x : UInt8} {l input : Bytes} (h : l ∈ splitByte x input) :
    ∃ pre post, input = pre ++ l ++ post ∧ (pre = [] ∨ ∃ p, pre = p ++ [x]) ∧
      (post = [] ∨ ∃ q, post = x :: q) := by
  generalize hn : input.length = n
  induction n using Nat.strongRecOn generalizing input with
  | ind n ih =>
    rcases splitByte_first (x := x) input with ⟨h1, h2⟩ | ⟨a, b, rfl, h2, h3⟩
    · rw [h1] at h
      obtain rfl := List.mem_singleton.mp h
      exact ⟨[], [], by simp, .inl rfl, .inl rfl⟩
    · rw [h3] at h
      rcases List.mem_cons.mp h with rfl | h
      · exact ⟨[], x :: b, by simp, .inl rfl, .inr ⟨b, rfl⟩⟩
      · obtain ⟨pre, post, rfl, hp, hq⟩ := ih b.length (by simp at hn; omega) h rfl
        refine ⟨a ++ x :: pre, post, by simp, .inr ?_, hq⟩
        rcases hp with rfl | ⟨p, rfl⟩
        · exact ⟨a, rfl⟩
        · exact ⟨a ++ x :: p, by simp⟩

/-- **C66** A text with a line that starts with a keyword of free-form geometry is never
accepted. -/
theorem C66_free_form_rejected (hlen : input.length < 2 ^ 63) {l : Bytes} {k : Tok}
    (hl : l ∈ textLines input) (hk : (tokens l).head? = some k) (hf : k ∈ freeForm) :
    ∀ r, (Obj.parse cfg input : Out Obj.ErrorKind (Obj.ObjectSet F)) ≠ .ok r := by
  have hkw : k ∉ [b!"v", b!"vt", b!"vn", b!"g", b!"s", b!"usemtl", b!"p", b!"l", b!"f", b!"o", b!"mtllib", nl] :=
    (by decide : ∀ k ∈ freeForm, k ∉ [b!"v", b!"vt", b!"vn", b!"g", b!"s", b!"usemtl", b!"p", b!"l", b!"f",
      b!"o", b!"mtllib", nl]) k hf
  obtain ⟨pre, post, rfl, hp, hq⟩ := mem_splitByte hl
  have hhead : (tokens (l ++ post)).head? = some k := by
    rcases hq with rfl | ⟨q, rfl⟩
    · rwa [List.append_nil]
    · rw [tokens_append_nl]
      cases e : tokens l with
      | nil => rw [e] at hk; cases hk
      | cons t ts => rw [e] at hk; exact hk
  rcases hp with rfl | ⟨p, rfl⟩
  · intro r h
    rw [List.nil_append] at h hlen
    rw [C47_first_line_rejected hlen hhead hkw] at h
    cases h
  · have e : p ++ [10] ++ l ++ post = p ++ 10 :: (l ++ post) := by simp
    rw [e] at hlen ⊢
    exact C47_unknown_line_rejected hlen hhead hkw

example (r : Obj.ObjectSet Bytes) :
    Obj.parse debug b!"v 0 0 0\np 1\n  cstype bezier # x\ndeg 3\n" ≠ .ok r :=
  C66_free_form_rejected (by decide) (l := b!"  cstype bezier # x") (k := b!"cstype") (by decide +kernel) (by decide +kernel)
    (by decide) r

/-! ## C67 -/

/-- The number of line ends, each LF and each CR counted. -/
def lineEnds (s : Bytes) : Nat := s.countP fun c => c == 10 || c == 13

theorem lineEnds_append (a b : Bytes) : lineEnds (a ++ b) = lineEnds a + lineEnds b := List.countP_append

/-- The counter is right, and the position is in the text. -/
def Counted (s : Lexer) : Prop :=
  s.stream_position ≤ s.stream.length ∧
    s.current_line_number = 1 + lineEnds (s.stream.take s.stream_position)

theorem counted_advance {s : Lexer} {c : UInt8} (h : Counted s) (hp : s.peek = some c) :
    Counted s.advance ∧ s.advance.stream = s.stream := by
  obtain ⟨h1, h2⟩ := h
  obtain ⟨line, pos, stream⟩ := s
  simp only [Lexer.peek] at hp h1 h2
  refine ⟨?_, rfl⟩
  have hlt : pos < stream.length := by
    by_contra hge
    rw [List.getElem?_eq_none (by omega)] at hp
    cases hp
  rw [List.getElem?_eq_getElem hlt, Option.some.injEq] at hp
  refine ⟨hlt, ?_⟩
  simp only [Lexer.advance, Lexer.peek, List.getElem?_eq_getElem hlt, hp]
  rw [List.take_succ_eq_append_getElem hlt, hp, lineEnds_append, ← Nat.add_assoc, ← h2]
  simp only [lineEnds, is_newline, List.countP_singleton]
  split <;> simp [*]

theorem counted_skip_loop (p : UInt8 → Bool) (fuel k : Nat) {s : Lexer} (h : Counted s) :
    Counted (Lexer.skip_while_loop p fuel k s).2 ∧ (Lexer.skip_while_loop p fuel k s).2.stream = s.stream := by
  induction fuel generalizing k s with
  | zero => exact ⟨h, rfl⟩
  | succ fuel ih =>
    rw [Lexer.skip_while_loop]
    split
    · rename_i ch hp
      split
      · obtain ⟨h1, h2⟩ := counted_advance h hp
        obtain ⟨h3, h4⟩ := ih (k + 1) h1
        exact ⟨h3, h4.trans h2⟩
      · exact ⟨h, rfl⟩
    · exact ⟨h, rfl⟩

theorem counted_skip_comment {s : Lexer} (h : Counted s) :
    Counted s.skip_comment.2 ∧ s.skip_comment.2.stream = s.stream := by
  unfold Lexer.skip_comment
  split
  · split
    · exact counted_skip_loop _ _ _ h
    · exact ⟨h, rfl⟩
  · exact ⟨h, rfl⟩

theorem counted_next_token {s : Lexer} (h : Counted s) :
    Counted s.next_token.2 ∧ s.next_token.2.stream = s.stream := by
  obtain ⟨h1, e1⟩ := counted_skip_loop is_whitespace (s.stream.length - s.stream_position) 0 h
  obtain ⟨h2, e2⟩ := counted_skip_comment h1
  change Counted s.skip_whitespace.2.skip_comment.2 at h2
  change s.skip_whitespace.2.stream = s.stream at e1
  change s.skip_whitespace.2.skip_comment.2.stream = s.skip_whitespace.2.stream at e2
  unfold Lexer.next_token
  simp only
  split
  · rename_i ch hp
    split
    · obtain ⟨h3, e3⟩ := counted_advance h2 hp
      exact ⟨h3, (e3.trans e2).trans e1⟩
    · obtain ⟨h3, e3⟩ := counted_skip_loop (fun ch => !(is_whitespace_or_newline ch || ch == 35)) (s.skip_whitespace.2.skip_comment.2.stream.length - s.skip_whitespace.2.skip_comment.2.stream_position) 0 h2
      split <;> exact ⟨h3, (e3.trans e2).trans e1⟩
  · exact ⟨h2, e2.trans e1⟩

/-- **C67** After any number of calls, `current_line_number` is one more than the number of line
ends in the part of the text that has been consumed, a CR and an LF counting separately (so
that it is not the line of the error messages, which counts LF alone). -/
theorem C67_line_counter (input : Bytes) (n : Nat) :
    (afterCalls n (Lexer.new input)).stream = input ∧
    (afterCalls n (Lexer.new input)).stream_position ≤ input.length ∧
    (afterCalls n (Lexer.new input)).current_line_number =
      1 + lineEnds (input.take (afterCalls n (Lexer.new input)).stream_position) := by
  have key : ∀ (n : Nat) (s : Lexer), Counted s → Counted (afterCalls n s) ∧ (afterCalls n s).stream = s.stream := by
    intro n
    induction n with
    | zero => exact fun s h => ⟨h, rfl⟩
    | succ n ih =>
      intro s h
      obtain ⟨h1, e1⟩ := counted_next_token h
      obtain ⟨h2, e2⟩ := ih _ h1
      exact ⟨h2, e2.trans e1⟩
  obtain ⟨⟨h1, h2⟩, e⟩ := key n (Lexer.new input) ⟨Nat.zero_le _, by simp [Lexer.new, lineEnds]⟩
  have e' : (afterCalls n (Lexer.new input)).stream = input := e
  rw [e'] at h1 h2
  exact ⟨e', h1, h2⟩

/-- **C67** When all tokens have been read, the whole text has been counted. -/
theorem C67_whole_text (input : Bytes) (n : Nat) (hn : (tokens input).length ≤ n) :
    (afterCalls n (Lexer.new input)).current_line_number = 1 + lineEnds input := by
  obtain ⟨e, -, h⟩ := C67_line_counter input n
  have hnone : (afterCalls n (Lexer.new input)).next_token.1 = none := by
    have := C01_tokenisation input n
    rw [lexerCall] at this
    rw [this, List.getElem?_eq_none hn]
  obtain ⟨blanks, comment, e', hb, hc⟩ := C03_none_only_at_end _ hnone
  rw [e] at e'
  rw [h]
  generalize (afterCalls n (Lexer.new input)).stream_position = p at e'
  conv_rhs => rw [← List.take_append_drop p input, lineEnds_append, e', lineEnds_append]
  have z : ∀ s : Bytes, (∀ c ∈ s, c ≠ 10 ∧ c ≠ 13) → lineEnds s = 0 := by
    intro s hs
    rw [lineEnds, List.countP_eq_zero]
    intro c hcm
    simp [hs c hcm]
  rw [z blanks, z comment]
  · simp
  · rcases hc with rfl | ⟨-, hc⟩
    · simp
    · exact hc
  · intro c hcm
    rcases hb c hcm with rfl | rfl | rfl <;> decide

/-- CR LF counts twice here, and once in the line of an error. -/
example : (afterCalls 3 (Lexer.new b!"a\r\nb # c\n\n")).current_line_number = 3 ∧
    (afterCalls 9 (Lexer.new b!"a\r\nb # c\n\n")).current_line_number = 5 ∧
    tokens b!"a\r\nb # c\n\n" = [b!"a", b!"\r", nl, b!"b", nl, nl] := by decide +kernel

end Verif.Props
