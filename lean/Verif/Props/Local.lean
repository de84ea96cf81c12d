import Verif.Proofs.Restrict
import Verif.Props.Stability

/-!
# Property C62: an error is caused by the lines up to the reported one
-/

namespace Verif.Props

open Verif Verif.Spec

variable {F : Type} [FloatSem F] {cfg : Obj.Cfg} {a b c : Bytes}

/-- If fewer newlines of `X ++ Y` have been read than `X` has, something of `X` is left. -/
theorem unread_split {X Y rest : List Tok} (hs : rest <:+ X ++ Y) (h : nls (X ++ Y) - nls rest < nls X) :
    ∃ r, rest = r ++ Y ∧ r ≠ [] := by
  have h1 := nls_append X Y
  have h2 := nls_suffix hs
  obtain ⟨p, hp⟩ := hs
  rcases List.append_eq_append_iff.mp hp with ⟨r, rfl, rfl⟩ | ⟨q, rfl, rfl⟩
  · refine ⟨r, rfl, ?_⟩
    rintro rfl
    simp only [List.append_nil, List.nil_append] at h h1 h2
    omega
  · have := nls_append X q
    have := nls_append q rest
    have e : nls (X ++ (q ++ rest)) = nls X + nls q + nls rest := by rw [nls_append, nls_append]; omega
    omega

/-- **C62** An error of `mtl::parse` is decided by the lines up to the reported one: those lines
alone give the same error. -/
theorem C62_enough_mtl {e : ParseError Mtl.ErrorKind}
    (h : (Mtl.parse (a ++ 10 :: b) : Out Mtl.ErrorKind (Mtl.MaterialSet F)) = .err e)
    (hl : e.line_number ≤ (a ++ [10]).count 10) :
    (Mtl.parse (a ++ [10]) : Out Mtl.ErrorKind (Mtl.MaterialSet F)) = .err e := by
  obtain ⟨rest, hf, hn⟩ := Mtl.parse_err_iff.mp h
  rw [tokens_two_lines] at hf hn
  rw [← nls_tokens] at hl
  change e.line_number ≤ nls _ at hl
  obtain ⟨r, rfl, hr⟩ := unread_split (Mtl.fileErr_suffix hf) (by
    have := nls_suffix (Mtl.fileErr_suffix hf)
    omega)
  obtain ⟨X, hX, hf'⟩ := Mtl.fileErr_restrict hf hr
  obtain rfl := List.append_cancel_right hX
  refine Mtl.parse_err_iff.mpr ⟨r, hf', ?_⟩
  rw [nls_append, nls_append] at hn
  omega

/-- **C62** The same for `obj::parse`. -/
theorem C62_enough_obj (hlen : (a ++ 10 :: b).length < 2 ^ 63) {e : ParseError Obj.ErrorKind}
    (h : (Obj.parse cfg (a ++ 10 :: b) : Out Obj.ErrorKind (Obj.ObjectSet F)) = .err e)
    (hl : e.line_number ≤ (a ++ [10]).count 10) :
    (Obj.parse cfg (a ++ [10]) : Out Obj.ErrorKind (Obj.ObjectSet F)) = .err e := by
  have hlen' : (a ++ [10]).length < 2 ^ 63 := by simp at hlen ⊢; omega
  obtain ⟨rest, hf, hn⟩ := (Obj.parse_err_iff hlen).mp h
  rw [tokens_two_lines] at hf hn
  rw [← nls_tokens] at hl
  change e.line_number ≤ nls _ at hl
  obtain ⟨r, rfl, hr⟩ := unread_split (Obj.fileErr_suffix hf) (by
    have := nls_suffix (Obj.fileErr_suffix hf)
    omega)
  obtain ⟨X, hX, hf'⟩ := Obj.fileErr_restrict hf hr
  obtain rfl := List.append_cancel_right hX
  refine (Obj.parse_err_iff hlen').mpr ⟨r, hf', ?_⟩
  rw [nls_append, nls_append] at hn
  omega

/-- **C62** So the text after the reported line does not matter. -/
theorem C62_same_mtl {e : ParseError Mtl.ErrorKind}
    (h : (Mtl.parse (a ++ 10 :: b) : Out Mtl.ErrorKind (Mtl.MaterialSet F)) = .err e)
    (hl : e.line_number ≤ (a ++ [10]).count 10) (c : Bytes) :
    (Mtl.parse (a ++ 10 :: c) : Out Mtl.ErrorKind (Mtl.MaterialSet F)) = .err e :=
  C58_final_mtl (C62_enough_mtl h hl) c

/-- **C62** The same for `obj::parse`; here the exception of C58 does not arise. -/
theorem C62_same_obj (hlen : (a ++ 10 :: b).length < 2 ^ 63) (hlen' : (a ++ 10 :: c).length < 2 ^ 63)
    {e : ParseError Obj.ErrorKind}
    (h : (Obj.parse cfg (a ++ 10 :: b) : Out Obj.ErrorKind (Obj.ObjectSet F)) = .err e)
    (hl : e.line_number ≤ (a ++ [10]).count 10) :
    (Obj.parse cfg (a ++ 10 :: c) : Out Obj.ErrorKind (Obj.ObjectSet F)) = .err e := by
  rcases C58_final_obj hlen' (C62_enough_obj hlen h hl) with h' | ⟨hk, -⟩
  · exact h'
  · exfalso
    obtain ⟨rest, hf, hn⟩ := (Obj.parse_err_iff hlen).mp h
    rw [hk] at hf
    obtain rfl := Obj.fileErr_eof hf
    rw [tokens_two_lines, nls_append] at hn
    rw [← nls_tokens] at hl
    change e.line_number ≤ nls _ at hl
    simp only [nls_nil] at hn
    omega

/-- **C62** The lines before are not at fault: if the error is reported on line `n`, the first
`n - 2` lines alone are not rejected. -/
theorem C62_before_mtl {e e' : ParseError Mtl.ErrorKind}
    (h : (Mtl.parse (a ++ 10 :: b) : Out Mtl.ErrorKind (Mtl.MaterialSet F)) = .err e)
    (hl : (a ++ [10]).count 10 + 2 ≤ e.line_number) :
    (Mtl.parse (a ++ [10]) : Out Mtl.ErrorKind (Mtl.MaterialSet F)) ≠ .err e' := by
  intro h'
  have h1 := C58_final_mtl h' b
  rw [h] at h1
  cases h1
  have := (C25_lines_mtl h').2
  omega

/-- **C62** The same for `obj::parse`, with the exception of C58. -/
theorem C62_before_obj (hlen : (a ++ 10 :: b).length < 2 ^ 63) {e e' : ParseError Obj.ErrorKind}
    (h : (Obj.parse cfg (a ++ 10 :: b) : Out Obj.ErrorKind (Obj.ObjectSet F)) = .err e)
    (hl : (a ++ [10]).count 10 + 2 ≤ e.line_number)
    (ho : ¬ [b!"o", nl] <:+ tokens (a ++ [10])) :
    (Obj.parse cfg (a ++ [10]) : Out Obj.ErrorKind (Obj.ObjectSet F)) ≠ .err e' := by
  intro h'
  rcases C58_final_obj hlen h' with h1 | ⟨-, h1⟩
  · rw [h] at h1
    cases h1
    have := (C25_lines_obj (by simp at hlen ⊢; omega) h').2
    omega
  · exact ho h1

/-- Reported on the third line, so whatever follows it does not matter. -/
example (c : Bytes) (hc : (b!"v 0 0 0\n\nbad 1" ++ 10 :: c).length < 2 ^ 63) :
    Obj.parse debug (b!"v 0 0 0\n\nbad 1" ++ 10 :: c) =
      (.err ⟨3, .InvalidObjectStatement, b!"Unsupported or invalid object statement `bad`."⟩ :
        Out Obj.ErrorKind (Obj.ObjectSet Bytes)) :=
  C62_same_obj (F := Bytes) (cfg := debug) (b := b!"p 1\n") (by decide) hc (by decide +kernel) (by decide)

example (c : Bytes) : Mtl.parse (b!"newmtl a\nKx 1" ++ 10 :: c) =
    (.err ⟨2, .ErrorParsingMaterial, b!"Could not parse the token `Kx`."⟩ :
      Out Mtl.ErrorKind (Mtl.MaterialSet Bytes)) :=
  C62_same_mtl (b := b!"Kd 1 1 1") (by decide +kernel) (by decide) c

/-- The fault can be on the line before the reported one: the newline has been read. -/
example : Obj.parse debug b!"v 0 0 0\nf 1 1\np 1\n" =
      (.err ⟨3, .EveryFaceElementMustHaveAtLeastThreeVertices,
        b!"A face primitive must have at least three vertices."⟩ : Out Obj.ErrorKind (Obj.ObjectSet Bytes)) ∧
    Obj.parse debug b!"v 0 0 0\nf 1 1\n" =
      (.err ⟨3, .EveryFaceElementMustHaveAtLeastThreeVertices,
        b!"A face primitive must have at least three vertices."⟩ : Out Obj.ErrorKind (Obj.ObjectSet Bytes)) := by
  decide +kernel

/-- The first two of five lines, with the error on line 4. -/
example (e : ParseError Obj.ErrorKind) : (Obj.parse debug (b!"v 0 0 0\np 1" ++ [10]) :
    Out Obj.ErrorKind (Obj.ObjectSet Bytes)) ≠ .err e :=
  C62_before_obj (F := Bytes) (b := b!"\nv 1 x 1\n")
    (e := ⟨4, .ExpectedFloat, b!"Expected a floating point number but got `x` instead."⟩)
    (by decide) (by decide +kernel) (by decide) (by decide)

end Verif.Props
