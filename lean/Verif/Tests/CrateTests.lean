import Verif.Model.Display
import Verif.Props.Samples
import Verif.Proofs.SimObj
import Verif.Proofs.SimMtl

/-!
# The tests of the crate, run on the model

Not a proof of anything about all inputs: evidence that the model computes what the Rust
code computes.  Each example is a test of the crate (named above it), translated
literally by a script; a floating point number is read as the rational number it
denotes.  A test on a file of `assets` has the contents of the file as its input.
-/

set_option maxRecDepth 100000

namespace Verif.Tests

open Verif Verif.Props

/-- The value of a decimal number, given with or without exponent. -/
def dec (t : Bytes) : Rat :=
  let mantissa := (dropSign t).takeWhile fun c => c != 69 && c != 101
  let exponent := (dropSign t).drop (mantissa.length + 1)
  let decimals := ((mantissa.dropWhile (· != 46)).drop 1).length
  let m : Int := digitsVal (mantissa.filter isDigit)
  let e := digitsVal (exponent.filter isDigit)
  let m := if t.head? = some 45 then -m else m
  if exponent.head? = some 45 then mkRat m (10 ^ (decimals + e))
  else mkRat (m * 10 ^ e) (10 ^ decimals)

scoped instance : FloatSem Rat := ⟨dec, 0, 1⟩

/-- `Result::is_ok`. -/
def isOk {K α : Type} : Out K α → Bool
  | .ok _ => true
  | _ => false

/-- `Result::is_err`. -/
def isErr {K α : Type} : Out K α → Bool
  | .err _ => true
  | _ => false

/-- `Result::ok`. -/
def value? {K α : Type} : Out K α → Option α
  | .ok a => some a
  | _ => none

/-- The kind of an error. -/
def errKind? {K α : Type} : Out K α → Option K
  | .err e => some e.kind
  | _ => none

/-- `lexer.collect()`. -/
def allTokens : Nat → PeekableLexer → List Tok
  | 0, _ => []
  | fuel + 1, s =>
    match s.next_token with
    | (some t, s) => t :: allTokens fuel s
    | (none, _) => []

/-! The longer texts are evaluated on their tokens: the kernel takes too much memory for
indexing into lists of bytes. -/

theorem allTokens_of {toks : List Tok} : ∀ {n : Nat} {s : PeekableLexer}, Holds s toks →
    toks.length < n → allTokens n s = toks := by
  induction toks with
  | nil =>
    intro n s h hn
    obtain ⟨n, rfl⟩ : ∃ m, n = m + 1 := ⟨n - 1, by omega⟩
    obtain ⟨h1, -⟩ := holds_bisim.next _ _ h
    rw [allTokens]
    rcases hs : s.next_token with ⟨_ | t, s'⟩
    · rfl
    · have : (s.next_token).1 = none := h1
      rw [hs] at this
      exact absurd this (by simp)
  | cons t r ih =>
    intro n s h hn
    obtain ⟨n, rfl⟩ : ∃ m, n = m + 1 := ⟨n - 1, by omega⟩
    obtain ⟨h1, h2⟩ := holds_bisim.next _ _ h
    have h1 : (s.next_token).1 = some t := h1
    have h2 : Holds (s.next_token).2 r := h2
    rw [allTokens]
    rcases hs : s.next_token with ⟨t', s'⟩
    rw [hs] at h1 h2
    simp only at h1 h2
    subst h1
    simp only
    rw [ih h2 (by simpa using hn)]

theorem lex_of {text : Bytes} {toks : List Tok} {n : Nat} (h : Spec.tokens text = toks)
    (hn : toks.length < n) : allTokens n (PeekableLexer.new (Lexer.new text)) = toks :=
  allTokens_of (h ▸ holds_new text) hn

theorem obj_of {cfg : Obj.Cfg} {text : Bytes} {r : Obj.ObjectSet Rat}
    (h : (Obj.parse_objset cfg (text.length + 1) (⟨1, Spec.tokens text⟩ : PState (List Tok))).1 = .ok r) :
    Obj.parse cfg text = .ok r := by
  have hs := (Obj.sim_parse_objset (F := Rat) (d := 0) holds_bisim.symm cfg (Nat.le_refl (text.length + 1))).run
    ⟨1, Spec.tokens text⟩ (Obj.Parser.new text) ⟨rfl, holds_new text⟩
  rw [h] at hs
  show (Obj.parse_objset cfg (text.length + 1) (Obj.Parser.new text)).1 = .ok r
  generalize (Obj.parse_objset (F := Rat) cfg (text.length + 1) (Obj.Parser.new text)).1 = o at hs ⊢
  cases o <;> simp_all [OutRel]

theorem mtl_of {text : Bytes} {r : Mtl.MaterialSet Rat}
    (h : (Mtl.parse_mtlset (text.length + 1) (⟨1, Spec.tokens text⟩ : PState (List Tok))).1 = .ok r) :
    Mtl.parse text = .ok r := by
  have hs := (Mtl.sim_parse_mtlset (F := Rat) (d := 0) holds_bisim.symm (Nat.le_refl (text.length + 1))).run
    ⟨1, Spec.tokens text⟩ (Mtl.Parser.new text) ⟨rfl, holds_new text⟩
  rw [h] at hs
  show (Mtl.parse_mtlset (text.length + 1) (Mtl.Parser.new text)).1 = .ok r
  generalize (Mtl.parse_mtlset (F := Rat) (text.length + 1) (Mtl.Parser.new text)).1 = o at hs ⊢
  cases o <;> simp_all [OutRel]

/-! ## src/lexer.rs -/

/-- `test_lexer`, case 0 -/
example : allTokens 2028 (PeekableLexer.new (Lexer.new (b!"                              \\\n                        v -2" ++
    b!".300000  1.950000  0.000000                \\\n               " ++
    b!"         v -2.200000  0.790000  0.000000                \\\n  " ++
    b!"                      v -2.340000 -1.510000  0.000000       " ++
    b!"         \\\n                        v -1.530000 -1.490000  0." ++
    b!"000000                \\\n                        v -0.720000 " ++
    b!"-1.470000  0.000000                \\\n                       " ++
    b!" v -0.780000  0.230000  0.000000                \\\n          " ++
    b!"              v  0.070000  0.250000  0.000000               " ++
    b!" \\\n                        v  0.920000  0.270000  0.000000  " ++
    b!"              \\\n                        v  0.800000 -1.61000" ++
    b!"0  0.000000                \\\n                        v  1.62" ++
    b!"0000 -1.590000  0.000000                \\\n                  " ++
    b!"      v  2.440000 -1.570000  0.000000                \\\n     " ++
    b!"                   v  2.690000  0.670000  0.000000          " ++
    b!"      \\\n                        v  2.900000  1.980000  0.000" ++
    b!"000                \\\n                        # 13 vertices  " ++
    b!"                                \\\n                          " ++
    b!"                                             \\\n             " ++
    b!"           # Multi                                        \\\n" ++
    b!"                        # line                              " ++
    b!"           \\\n                        # comment              " ++
    b!"                        \\\n                        cstype bez" ++
    b!"ier                                  \\\n                     " ++
    b!"   ctech cparm 1.000000                           \\\n        " ++
    b!"                deg 3                                       " ++
    b!"   \\\n                        curv 0.000000 4.000000 1 2 3 4 " ++
    b!"5 6 7 8 9 10 \\\\ \\\n                        11 12 13          " ++
    b!"                             \\\n                        parm " ++
    b!"u 0.000000 1.000000 2.000000 3.000000  \\\\ \\\n                " ++
    b!"        4.000000                                       \\\n   " ++
    b!"                     end                                    " ++
    b!"        \\\n                        # 1 element               " ++
    b!"                     \\\n                        "))) =
    [b!"\n", b!"v", b!"-2.300000", b!"1.950000", b!"0.000000", b!"\n", b!"v", b!"-2.200000", b!"0.790000", b!"0.000000", b!"\n", b!"v", b!"-2.340000", b!"-1.510000", b!"0.000000", b!"\n", b!"v", b!"-1.530000", b!"-1.490000", b!"0.000000", b!"\n", b!"v", b!"-0.720000", b!"-1.470000", b!"0.000000", b!"\n", b!"v", b!"-0.780000", b!"0.230000", b!"0.000000", b!"\n", b!"v", b!"0.070000", b!"0.250000", b!"0.000000", b!"\n", b!"v", b!"0.920000", b!"0.270000", b!"0.000000", b!"\n", b!"v", b!"0.800000", b!"-1.610000", b!"0.000000", b!"\n", b!"v", b!"1.620000", b!"-1.590000", b!"0.000000", b!"\n", b!"v", b!"2.440000", b!"-1.570000", b!"0.000000", b!"\n", b!"v", b!"2.690000", b!"0.670000", b!"0.000000", b!"\n", b!"v", b!"2.900000", b!"1.980000", b!"0.000000", b!"\n", b!"\n", b!"\n", b!"\n", b!"\n", b!"\n", b!"cstype", b!"bezier", b!"\n", b!"ctech", b!"cparm", b!"1.000000", b!"\n", b!"deg", b!"3", b!"\n", b!"curv", b!"0.000000", b!"4.000000", b!"1", b!"2", b!"3", b!"4", b!"5", b!"6", b!"7", b!"8", b!"9", b!"10", b!"\n", b!"11", b!"12", b!"13", b!"\n", b!"parm", b!"u", b!"0.000000", b!"1.000000", b!"2.000000", b!"3.000000", b!"\n", b!"4.000000", b!"\n", b!"end", b!"\n", b!"\n"] :=
  lex_of (by decide +kernel) (by decide +kernel)

/-- `test_lexer`, case 1 -/
example : allTokens 1664 (PeekableLexer.new (Lexer.new (b!"                           \\\n                        # diamo" ++
    b!"nd.obj                               \\\n                     " ++
    b!"                                               \\\n           " ++
    b!"             g Object001                                 \\\n " ++
    b!"                                                            " ++
    b!"       \\\n                        v  0.000000E+00  0.000000E+" ++
    b!"00  78.0000      \\\n                        v  45.0000       " ++
    b!"45.0000       0.000000E+00 \\\n                        v  45.0" ++
    b!"000      -45.0000       0.000000E+00 \\\n                     " ++
    b!"   v -45.0000      -45.0000       0.000000E+00 \\\n           " ++
    b!"             v -45.0000       45.0000       0.000000E+00 \\\n " ++
    b!"                       v  0.000000E+00  0.000000E+00 -78.000" ++
    b!"0      \\\n                                                   " ++
    b!"                 \\\n                        f     1 2 3      " ++
    b!"                           \\\n                        f     1" ++
    b!" 3 4                                 \\\n                     " ++
    b!"   f     1 4 5                                 \\\n           " ++
    b!"             f     1 5 2                                 \\\n " ++
    b!"                       f     6 5 4                          " ++
    b!"       \\\n                        f     6 4 3                " ++
    b!"                 \\\n                        f     6 3 2      " ++
    b!"                           \\\n                        f     6" ++
    b!" 2 1                                 \\\n                     " ++
    b!"   f     6 1 5                                 \\\n           " ++
    b!"                                                         \\\n " ++
    b!"                                                            " ++
    b!"       \\\n                                                   " ++
    b!"                 \\\n                        "))) =
    [b!"\n", b!"\n", b!"\n", b!"g", b!"Object001", b!"\n", b!"\n", b!"v", b!"0.000000E+00", b!"0.000000E+00", b!"78.0000", b!"\n", b!"v", b!"45.0000", b!"45.0000", b!"0.000000E+00", b!"\n", b!"v", b!"45.0000", b!"-45.0000", b!"0.000000E+00", b!"\n", b!"v", b!"-45.0000", b!"-45.0000", b!"0.000000E+00", b!"\n", b!"v", b!"-45.0000", b!"45.0000", b!"0.000000E+00", b!"\n", b!"v", b!"0.000000E+00", b!"0.000000E+00", b!"-78.0000", b!"\n", b!"\n", b!"f", b!"1", b!"2", b!"3", b!"\n", b!"f", b!"1", b!"3", b!"4", b!"\n", b!"f", b!"1", b!"4", b!"5", b!"\n", b!"f", b!"1", b!"5", b!"2", b!"\n", b!"f", b!"6", b!"5", b!"4", b!"\n", b!"f", b!"6", b!"4", b!"3", b!"\n", b!"f", b!"6", b!"3", b!"2", b!"\n", b!"f", b!"6", b!"2", b!"1", b!"\n", b!"f", b!"6", b!"1", b!"5", b!"\n", b!"\n", b!"\n", b!"\n"] :=
  lex_of (by decide +kernel) (by decide +kernel)

/-- `test_lexer`, case 2 -/
example : allTokens 3022 (PeekableLexer.new (Lexer.new (b!"                                   \\\n                       " ++
    b!" # trimming curve                                    \\\n     " ++
    b!"                   vp -0.675  1.850 3.000                   " ++
    b!"           \\\n                        vp  0.915  1.930       " ++
    b!"                             \\\n                        vp  2" ++
    b!".485  0.470 2.000                              \\\n           " ++
    b!"             vp  2.485 -1.030                               " ++
    b!"     \\\n                        vp  1.605 -1.890 10.700      " ++
    b!"                       \\\n                        vp -0.745 -" ++
    b!"0.654 0.500                              \\\n                 " ++
    b!"       cstype rat bezier                                   \\" ++
    b!"\n                        deg 3                              " ++
    b!"                 \\\n                        curv2 -6 -5 -4 -3" ++
    b!" -2 -1 -6                          \\\n                       " ++
    b!" parm u 0.00 1.00 2.00                               \\\n     " ++
    b!"                   end                                      " ++
    b!"           \\\n                        # special curve        " ++
    b!"                             \\\n                        vp -0" ++
    b!".185 0.322                                     \\\n           " ++
    b!"             vp  0.214 0.818                                " ++
    b!"     \\\n                        vp  1.652 0.207              " ++
    b!"                       \\\n                        vp  1.652 -" ++
    b!"0.455                                    \\\n                 " ++
    b!"       curv2 -4 -3 -2 -1                                   \\" ++
    b!"\n                        parm u 2.00 10.00                  " ++
    b!"                 \\\n                        end              " ++
    b!"                                   \\\n                       " ++
    b!" # surface                                           \\\n     " ++
    b!"                   v -1.350 -1.030 0.000                    " ++
    b!"           \\\n                        v  0.130 -1.030 0.432 7" ++
    b!".600                         \\\n                        v  1." ++
    b!"480 -1.030 0.000 2.300                         \\\n           " ++
    b!"             v -1.460  0.060 0.201                          " ++
    b!"     \\\n                        v  0.120  0.060 0.915 0.500  " ++
    b!"                       \\\n                        v  1.380  0" ++
    b!".060 0.454 1.500                         \\\n                 " ++
    b!"       v -1.480  1.030 0.000 2.300                         \\" ++
    b!"\n                        v  0.120  1.030 0.394 6.100        " ++
    b!"                 \\\n                        v  1.170  1.030 0" ++
    b!".000 3.300                         \\\n                       " ++
    b!" cstype rat bspline                                  \\\n     " ++
    b!"                   deg 2 2                                  " ++
    b!"           \\\n                        surf -1.0 2.5 -2.0 2.0 " ++
    b!"-9 -8 -7 -6 -5 -4 -3 -2 -1   \\\n                        parm " ++
    b!"u -1.00 -1.00 -1.00 2.50 2.50 2.50             \\\n           " ++
    b!"             parm v -2.00 -2.00 -2.00 2.00 2.00 2.00        " ++
    b!"     \\\n                        trim 0.0 2.0 1               " ++
    b!"                       \\\n                        scrv 4.2 9." ++
    b!"7 2                                      \\\n                 " ++
    b!"       end                                                 \\" ++
    b!"\n                    "))) =
    [b!"\n", b!"\n", b!"vp", b!"-0.675", b!"1.850", b!"3.000", b!"\n", b!"vp", b!"0.915", b!"1.930", b!"\n", b!"vp", b!"2.485", b!"0.470", b!"2.000", b!"\n", b!"vp", b!"2.485", b!"-1.030", b!"\n", b!"vp", b!"1.605", b!"-1.890", b!"10.700", b!"\n", b!"vp", b!"-0.745", b!"-0.654", b!"0.500", b!"\n", b!"cstype", b!"rat", b!"bezier", b!"\n", b!"deg", b!"3", b!"\n", b!"curv2", b!"-6", b!"-5", b!"-4", b!"-3", b!"-2", b!"-1", b!"-6", b!"\n", b!"parm", b!"u", b!"0.00", b!"1.00", b!"2.00", b!"\n", b!"end", b!"\n", b!"\n", b!"vp", b!"-0.185", b!"0.322", b!"\n", b!"vp", b!"0.214", b!"0.818", b!"\n", b!"vp", b!"1.652", b!"0.207", b!"\n", b!"vp", b!"1.652", b!"-0.455", b!"\n", b!"curv2", b!"-4", b!"-3", b!"-2", b!"-1", b!"\n", b!"parm", b!"u", b!"2.00", b!"10.00", b!"\n", b!"end", b!"\n", b!"\n", b!"v", b!"-1.350", b!"-1.030", b!"0.000", b!"\n", b!"v", b!"0.130", b!"-1.030", b!"0.432", b!"7.600", b!"\n", b!"v", b!"1.480", b!"-1.030", b!"0.000", b!"2.300", b!"\n", b!"v", b!"-1.460", b!"0.060", b!"0.201", b!"\n", b!"v", b!"0.120", b!"0.060", b!"0.915", b!"0.500", b!"\n", b!"v", b!"1.380", b!"0.060", b!"0.454", b!"1.500", b!"\n", b!"v", b!"-1.480", b!"1.030", b!"0.000", b!"2.300", b!"\n", b!"v", b!"0.120", b!"1.030", b!"0.394", b!"6.100", b!"\n", b!"v", b!"1.170", b!"1.030", b!"0.000", b!"3.300", b!"\n", b!"cstype", b!"rat", b!"bspline", b!"\n", b!"deg", b!"2", b!"2", b!"\n", b!"surf", b!"-1.0", b!"2.5", b!"-2.0", b!"2.0", b!"-9", b!"-8", b!"-7", b!"-6", b!"-5", b!"-4", b!"-3", b!"-2", b!"-1", b!"\n", b!"parm", b!"u", b!"-1.00", b!"-1.00", b!"-1.00", b!"2.50", b!"2.50", b!"2.50", b!"\n", b!"parm", b!"v", b!"-2.00", b!"-2.00", b!"-2.00", b!"2.00", b!"2.00", b!"2.00", b!"\n", b!"trim", b!"0.0", b!"2.0", b!"1", b!"\n", b!"scrv", b!"4.2", b!"9.7", b!"2", b!"\n", b!"end", b!"\n"] :=
  lex_of (by decide +kernel) (by decide +kernel)


/-! ## src/obj.rs -/

/-- `test_parse_f64` -/
example :
    let r1 := (Obj.parse_f64 (F := Rat)) (Obj.Parser.new b!"-1.929448")
    r1.1 = (.ok (dec b!"-1.929448")) := by decide +kernel

/-- `test_parse_isize` -/
example :
    let r1 := (Obj.parse_isize) (Obj.Parser.new b!"    763   ")
    r1.1 = (.ok 763) := by decide +kernel

/-- `test_parse_vertex1` -/
example :
    let r1 := (Obj.parse_vertex (F := Rat)) (Obj.Parser.new b!"v -1.929448 13.329624 -5.221914\n")
    r1.1 = (.ok ⟨(dec b!"-1.929448"), (dec b!"13.329624"), (dec b!"-5.221914"), (dec b!"1.0")⟩) := by decide +kernel

/-- `test_parse_vertex2` -/
example :
    let r1 := (Obj.parse_vertex (F := Rat)) (Obj.Parser.new b!"v -1.929448 13.329624 -5.221914 1.329624\n")
    r1.1 = (.ok ⟨(dec b!"-1.929448"), (dec b!"13.329624"), (dec b!"-5.221914"), (dec b!"1.329624")⟩) := by decide +kernel

/-- `test_parse_vertex3` -/
example :
    let r1 := (Obj.parse_vertex (F := Rat)) (Obj.Parser.new b!"v -1.929448 13.329624 \n")
    isErr r1.1 = true := by decide +kernel

/-- `test_parse_vertex4` -/
example :
    let r1 := (Obj.parse_vertex (F := Rat)) (Obj.Parser.new b!"v -1.929448 13.329624 -5.221914 1.329624\n v")
    isOk r1.1 = true := by decide +kernel

/-- `test_parse_vertex5` -/
example :
    let r1 := (Obj.parse_vertex (F := Rat)) (Obj.Parser.new (b!"v -6.207583 1.699077 8.466142\n              v -14.299248 1.7" ++
    b!"00244 8.468981 1.329624"))
    let r2 := (P.next (K := Obj.ErrorKind)) r1.2
    let r3 := (Obj.parse_vertex (F := Rat)) r2.2
    r1.1 = (.ok ⟨(dec b!"-6.207583"), (dec b!"1.699077"), (dec b!"8.466142"), (dec b!"1.0")⟩) ∧
    r2.1 = .ok (some b!"\n") ∧
    r3.1 = (.ok ⟨(dec b!"-14.299248"), (dec b!"1.700244"), (dec b!"8.468981"), (dec b!"1.329624")⟩) := by decide +kernel

/-- `test_parse_vertex6` -/
example :
    let r1 := (Obj.parse_vertex (F := Rat)) (Obj.Parser.new (b!"v -6.207583 1.699077 8.466142 v -14.299248 1.700244 8.468981" ++
    b!" 1.329624"))
    let r2 := (P.peek (K := Obj.ErrorKind)) r1.2
    let r3 := (Obj.parse_vertex (F := Rat)) r2.2
    r1.1 = (.ok ⟨(dec b!"-6.207583"), (dec b!"1.699077"), (dec b!"8.466142"), (dec b!"1.0")⟩) ∧
    r2.1 = .ok (some b!"v") ∧
    r3.1 = (.ok ⟨(dec b!"-14.299248"), (dec b!"1.700244"), (dec b!"8.468981"), (dec b!"1.329624")⟩) := by decide +kernel

/-- `test_parse_texture_vertex1` -/
example :
    let r1 := (Obj.parse_texture_vertex (F := Rat)) (Obj.Parser.new b!"vt -1.929448")
    r1.1 = (.ok ⟨(dec b!"-1.929448"), (dec b!"0.0"), (dec b!"0.0")⟩) := by decide +kernel

/-- `test_parse_texture_vertex2` -/
example :
    let r1 := (Obj.parse_texture_vertex (F := Rat)) (Obj.Parser.new b!"vt -1.929448 13.329624 -5.221914")
    r1.1 = (.ok ⟨(dec b!"-1.929448"), (dec b!"13.329624"), (dec b!"-5.221914")⟩) := by decide +kernel

/-- `test_parse_texture_vertex3` -/
example :
    let r1 := (Obj.parse_texture_vertex (F := Rat)) (Obj.Parser.new (b!"vt -1.929448 13.329624 -5.221914\n             vt -27.6068  3" ++
    b!"1.1438    27.2099"))
    let r2 := (P.next (K := Obj.ErrorKind)) r1.2
    let r3 := (Obj.parse_texture_vertex (F := Rat)) r2.2
    r1.1 = (.ok ⟨(dec b!"-1.929448"), (dec b!"13.329624"), (dec b!"-5.221914")⟩) ∧
    r2.1 = .ok (some b!"\n") ∧
    r3.1 = (.ok ⟨(dec b!"-27.6068"), (dec b!"31.1438"), (dec b!"27.2099")⟩) := by decide +kernel

/-- `test_parse_texture_vertex4` -/
example :
    let r1 := (Obj.parse_texture_vertex (F := Rat)) (Obj.Parser.new (b!"vt -1.929448 13.329624 -5.221914 vt -27.6068  31.1438    27." ++
    b!"2099"))
    let r2 := (P.peek (K := Obj.ErrorKind)) r1.2
    let r3 := (Obj.parse_texture_vertex (F := Rat)) r2.2
    r1.1 = (.ok ⟨(dec b!"-1.929448"), (dec b!"13.329624"), (dec b!"-5.221914")⟩) ∧
    r2.1 = .ok (some b!"vt") ∧
    r3.1 = (.ok ⟨(dec b!"-27.6068"), (dec b!"31.1438"), (dec b!"27.2099")⟩) := by decide +kernel

/-- `test_parse_normal_vertex1` -/
example :
    let r1 := (Obj.parse_normal_vertex (F := Rat)) (Obj.Parser.new b!"vn  -0.966742  -0.255752  9.97231e-09")
    r1.1 = (.ok ⟨(dec b!"-0.966742"), (dec b!"-0.255752"), (dec b!"9.97231e-09")⟩) := by decide +kernel

/-- `test_parse_normal_vertex2` -/
example :
    let r1 := (Obj.parse_normal_vertex (F := Rat)) (Obj.Parser.new (b!"vn -1.929448 13.329624 -5.221914\n             vn -27.6068  3" ++
    b!"1.1438    27.2099"))
    let r2 := (P.next (K := Obj.ErrorKind)) r1.2
    let r3 := (Obj.parse_normal_vertex (F := Rat)) r2.2
    r1.1 = (.ok ⟨(dec b!"-1.929448"), (dec b!"13.329624"), (dec b!"-5.221914")⟩) ∧
    r2.1 = .ok (some b!"\n") ∧
    r3.1 = (.ok ⟨(dec b!"-27.6068"), (dec b!"31.1438"), (dec b!"27.2099")⟩) := by decide +kernel

/-- `test_parse_normal_vertex3` -/
example :
    let r1 := (Obj.parse_normal_vertex (F := Rat)) (Obj.Parser.new (b!"vn -1.929448 13.329624 -5.221914 vn -27.6068  31.1438    27." ++
    b!"2099"))
    let r2 := (P.peek (K := Obj.ErrorKind)) r1.2
    let r3 := (Obj.parse_normal_vertex (F := Rat)) r2.2
    r1.1 = (.ok ⟨(dec b!"-1.929448"), (dec b!"13.329624"), (dec b!"-5.221914")⟩) ∧
    r2.1 = .ok (some b!"vn") ∧
    r3.1 = (.ok ⟨(dec b!"-27.6068"), (dec b!"31.1438"), (dec b!"27.2099")⟩) := by decide +kernel

/-- `test_parse_object_name1` -/
example :
    let r1 := (Obj.parse_object_name 100) (Obj.Parser.new b!"o object_name \n\n")
    r1.1 = (.ok b!"object_name") := by decide +kernel

/-- `test_parse_object_name2` -/
example :
    let r1 := (Obj.parse_object_name 100) (Obj.Parser.new b!"o object_name")
    isErr r1.1 = true := by decide +kernel

/-- `test_parse_vtn_index1` -/
example :
    let r1 := (Obj.parse_vtn_index debug ⟨(0, 1300), (0, 1300), (0, 1300)⟩) (Obj.Parser.new b!"1291")
    r1.1 = (.ok (.V 1290)) := by decide +kernel

/-- `test_parse_vtn_index2` -/
example :
    let r1 := (Obj.parse_vtn_index debug ⟨(0, 1316), (0, 1316), (0, 1316)⟩) (Obj.Parser.new b!"1291/1315")
    r1.1 = (.ok (.VT 1290 1314)) := by decide +kernel

/-- `test_parse_vtn_index3` -/
example :
    let r1 := (Obj.parse_vtn_index debug ⟨(0, 1316), (0, 1316), (0, 1316)⟩) (Obj.Parser.new b!"1291/1315/1314")
    r1.1 = (.ok (.VTN 1290 1314 1313)) := by decide +kernel

/-- `test_parse_vtn_index4` -/
example :
    let r1 := (Obj.parse_vtn_index debug ⟨(0, 1316), (0, 1316), (0, 1316)⟩) (Obj.Parser.new b!"1291//1315")
    r1.1 = (.ok (.VN 1290 1314)) := by decide +kernel

/-- `test_parse_point1` -/
example :
    let r1 := (Obj.parse_elements debug 100 [] ⟨(0, 5), (0, 5), (0, 5)⟩) (Obj.Parser.new b!"p 1 2 3 4 \n")
    isOk r1.1 = true ∧
    (value? r1.1).map Prod.fst = some [(.Point (.V 0)), (.Point (.V 1)), (.Point (.V 2)), (.Point (.V 3))] := by decide +kernel

/-- `test_parse_point2` -/
example :
    let r1 := (Obj.parse_elements debug 100 [] ⟨(0, 6), (0, 6), (0, 6)⟩) (Obj.Parser.new b!"p 1 1/2 3 4/5")
    isErr r1.1 = true := by decide +kernel

/-- `test_parse_line1` -/
example :
    let r1 := (Obj.parse_elements debug 100 [] ⟨(0, 300), (0, 300), (0, 300)⟩) (Obj.Parser.new b!"l 297 38 118 108 \n")
    isOk r1.1 = true ∧
    (value? r1.1).map Prod.fst = some [(.Line (.V 296) (.V 37)), (.Line (.V 37) (.V 117)), (.Line (.V 117) (.V 107))] := by decide +kernel

/-- `test_parse_line2` -/
example :
    let r1 := (Obj.parse_elements debug 100 [] ⟨(0, 300), (0, 300), (0, 300)⟩) (Obj.Parser.new b!"l 297/38 118/108 \n")
    isOk r1.1 = true ∧
    (value? r1.1).map Prod.fst = some [(.Line (.VT 296 37) (.VT 117 107))] := by decide +kernel

/-- `test_parse_line3` -/
example :
    let r1 := (Obj.parse_elements debug 100 [] ⟨(0, 400), (0, 400), (0, 400)⟩) (Obj.Parser.new b!"l 297/38 118/108 324/398 \n")
    isOk r1.1 = true ∧
    (value? r1.1).map Prod.fst = some [(.Line (.VT 296 37) (.VT 117 107)), (.Line (.VT 117 107) (.VT 323 397))] := by decide +kernel

/-- `test_parse_line4` -/
example :
    let r1 := (Obj.parse_elements debug 100 [] ⟨(0, 340), (0, 340), (0, 340)⟩) (Obj.Parser.new b!"l 297/38 118 324 \n")
    isErr r1.1 = true := by decide +kernel

/-- `test_parse_line5` -/
example :
    let r1 := (Obj.parse_elements debug 100 [] ⟨(0, 400), (0, 400), (0, 400)⟩) (Obj.Parser.new b!"l 297 118/108 324/398 \n")
    isErr r1.1 = true := by decide +kernel

/-- `test_parse_face1` -/
example :
    let r1 := (Obj.parse_elements debug 100 [] ⟨(0, 340), (0, 340), (0, 340)⟩) (Obj.Parser.new b!"f 297 118 108\n")
    isOk r1.1 = true ∧
    (value? r1.1).map Prod.fst = some [(.Face (.V 296) (.V 117) (.V 107))] := by decide +kernel

/-- `test_parse_face2` -/
example :
    let r1 := (Obj.parse_elements debug 100 [] ⟨(0, 340), (0, 340), (0, 340)⟩) (Obj.Parser.new b!"f 297 118 108 324\n")
    isOk r1.1 = true ∧
    (value? r1.1).map Prod.fst = some [(.Face (.V 296) (.V 117) (.V 107)), (.Face (.V 296) (.V 107) (.V 323))] := by decide +kernel

/-- `test_parse_face3` -/
example :
    let r1 := (Obj.parse_elements debug 100 [] ⟨(0, 400), (0, 400), (0, 400)⟩) (Obj.Parser.new b!"f 297 118 108 324 398 \n")
    isOk r1.1 = true ∧
    (value? r1.1).map Prod.fst = some [(.Face (.V 296) (.V 117) (.V 107)), (.Face (.V 296) (.V 107) (.V 323)), (.Face (.V 296) (.V 323) (.V 397))] := by decide +kernel

/-- `test_parse_face4` -/
example :
    let r1 := (Obj.parse_face debug 100 [] ⟨(0, 400), (0, 400), (0, 400)⟩) (Obj.Parser.new b!"f 297 118 \n")
    isErr r1.1 = true := by decide +kernel

/-- `test_parse_face5` -/
example :
    let r1 := (Obj.parse_elements debug 100 [] ⟨(320, 35000), (320, 35000), (320, 35000)⟩) (Obj.Parser.new (b!"f 34184//34184 34088//34088 34079//34079 34084//34084 34091/" ++
    b!"/34091 34076//34076\n"))
    (value? r1.1).map Prod.fst = some [(.Face (.VN 33863 33863) (.VN 33767 33767) (.VN 33758 33758)), (.Face (.VN 33863 33863) (.VN 33758 33758) (.VN 33763 33763)), (.Face (.VN 33863 33863) (.VN 33763 33763) (.VN 33770 33770)), (.Face (.VN 33863 33863) (.VN 33770 33770) (.VN 33755 33755))] := by decide +kernel

/-- `test_parse_face6` -/
example :
    let r1 := (Obj.parse_elements debug 100 [] ⟨(0, 340), (0, 340), (0, 340)⟩) (Obj.Parser.new b!"f 297/13/12 118/124/45 108/93/7\n")
    isOk r1.1 = true ∧
    (value? r1.1).map Prod.fst = some [(.Face (.VTN 296 12 11) (.VTN 117 123 44) (.VTN 107 92 6))] := by decide +kernel

/-- `parse_group_name1` -/
example :
    let r1 := (Obj.parse_groups 100 []) (Obj.Parser.new b!"g group")
    isOk r1.1 = true ∧
    (value? r1.1).map Prod.fst = some [⟨b!"group"⟩] := by decide +kernel

/-- `parse_group_name2` -/
example :
    let r1 := (Obj.parse_groups 100 []) (Obj.Parser.new b!"g group1 group2 group3")
    isOk r1.1 = true ∧
    (value? r1.1).map Prod.fst = some [⟨b!"group1"⟩, ⟨b!"group2"⟩, ⟨b!"group3"⟩] := by decide +kernel

/-- `test_smoothing_group_name1` -/
example :
    let r1 := (Obj.parse_smoothing_group []) (Obj.Parser.new b!"s off")
    isOk r1.1 = true ∧
    (value? r1.1) = some [⟨0⟩] := by decide +kernel

/-- `test_smoothing_group_name2` -/
example :
    let r1 := (Obj.parse_smoothing_group []) (Obj.Parser.new b!"s 0")
    isOk r1.1 = true ∧
    (value? r1.1) = some [⟨0⟩] := by decide +kernel

/-- `test_smoothing_group_name3` -/
example :
    let r1 := (Obj.parse_smoothing_group []) (Obj.Parser.new b!"s 3434")
    isOk r1.1 = true ∧
    (value? r1.1) = some [⟨3434⟩] := by decide +kernel

/-- `test_mtllib_empty` -/
example :
    let r1 := (Obj.parse_material_library_line 100 []) (Obj.Parser.new b!"mtllib       ")
    (value? r1.1) = some [] ∧
    (value? r1.1).map List.length = some 0 := by decide +kernel

/-- `test_mtllib1` -/
example :
    let r1 := (Obj.parse_material_library_line 100 []) (Obj.Parser.new b!"mtllib library1.mtl")
    (value? r1.1) = some [b!"library1.mtl"] ∧
    (value? r1.1).map List.length = some 1 := by decide +kernel

/-- `test_mtllib2` -/
example :
    let r1 := (Obj.parse_material_library_line 100 []) (Obj.Parser.new b!"mtllib library1.mtl library2.mtl library3.mtl")
    (value? r1.1) = some [b!"library1.mtl", b!"library2.mtl", b!"library3.mtl"] ∧
    (value? r1.1).map List.length = some 3 := by decide +kernel

/-- `test_parse_object_set1` -/
example : Obj.parse debug (b!"                \\\n            o object1                     " ++
    b!"    \\\n            g cube                            \\\n      " ++
    b!"      v  0.0  0.0  0.0                  \\\n            v  0.0" ++
    b!"  0.0  1.0                  \\\n            v  0.0  1.0  0.0  " ++
    b!"                \\\n            v  0.0  1.0  1.0              " ++
    b!"    \\\n            v  1.0  0.0  0.0                  \\\n      " ++
    b!"      v  1.0  0.0  1.0                  \\\n            v  1.0" ++
    b!"  1.0  0.0                  \\\n            v  1.0  1.0  1.0  " ++
    b!"                \\\n                                          " ++
    b!"    \\\n            vn  0.0  0.0  1.0                 \\\n      " ++
    b!"      vn  0.0  0.0 -1.0                 \\\n            vn  0." ++
    b!"0  1.0  0.0                 \\\n            vn  0.0 -1.0  0.0 " ++
    b!"                \\\n            vn  1.0  0.0  0.0             " ++
    b!"    \\\n            vn -1.0  0.0  0.0                 \\\n      " ++
    b!"                                        \\\n            f  1//" ++
    b!"2  7//2  5//2               \\\n            f  1//2  3//2  7//" ++
    b!"2               \\\n            f  1//6  4//6  3//6           " ++
    b!"    \\\n            f  1//6  2//6  4//6               \\\n      " ++
    b!"      f  3//3  8//3  7//3               \\\n            f  3//" ++
    b!"3  4//3  8//3               \\\n            f  5//5  7//5  8//" ++
    b!"5               \\\n            f  5//5  8//5  6//5           " ++
    b!"    \\\n            f  1//4  5//4  6//4               \\\n      " ++
    b!"      f  1//4  6//4  2//4               \\\n            f  2//" ++
    b!"1  6//1  8//1               \\\n            f  2//1  8//1  4//" ++
    b!"1               \\\n        ") = (.ok ⟨[], [⟨b!"object1", [⟨(dec b!"0.0"), (dec b!"0.0"), (dec b!"0.0"), (dec b!"1.0")⟩, ⟨(dec b!"0.0"), (dec b!"0.0"), (dec b!"1.0"), (dec b!"1.0")⟩, ⟨(dec b!"0.0"), (dec b!"1.0"), (dec b!"0.0"), (dec b!"1.0")⟩, ⟨(dec b!"0.0"), (dec b!"1.0"), (dec b!"1.0"), (dec b!"1.0")⟩, ⟨(dec b!"1.0"), (dec b!"0.0"), (dec b!"0.0"), (dec b!"1.0")⟩, ⟨(dec b!"1.0"), (dec b!"0.0"), (dec b!"1.0"), (dec b!"1.0")⟩, ⟨(dec b!"1.0"), (dec b!"1.0"), (dec b!"0.0"), (dec b!"1.0")⟩, ⟨(dec b!"1.0"), (dec b!"1.0"), (dec b!"1.0"), (dec b!"1.0")⟩], [], [⟨(dec b!"0.0"), (dec b!"0.0"), (dec b!"1.0")⟩, ⟨(dec b!"0.0"), (dec b!"0.0"), (dec b!"-1.0")⟩, ⟨(dec b!"0.0"), (dec b!"1.0"), (dec b!"0.0")⟩, ⟨(dec b!"0.0"), (dec b!"-1.0"), (dec b!"0.0")⟩, ⟨(dec b!"1.0"), (dec b!"0.0"), (dec b!"0.0")⟩, ⟨(dec b!"-1.0"), (dec b!"0.0"), (dec b!"0.0")⟩], [⟨b!"cube"⟩], [⟨0⟩], [(.Face (.VN 0 1) (.VN 6 1) (.VN 4 1)), (.Face (.VN 0 1) (.VN 2 1) (.VN 6 1)), (.Face (.VN 0 5) (.VN 3 5) (.VN 2 5)), (.Face (.VN 0 5) (.VN 1 5) (.VN 3 5)), (.Face (.VN 2 2) (.VN 7 2) (.VN 6 2)), (.Face (.VN 2 2) (.VN 3 2) (.VN 7 2)), (.Face (.VN 4 4) (.VN 6 4) (.VN 7 4)), (.Face (.VN 4 4) (.VN 7 4) (.VN 5 4)), (.Face (.VN 0 3) (.VN 4 3) (.VN 5 3)), (.Face (.VN 0 3) (.VN 5 3) (.VN 1 3)), (.Face (.VN 1 0) (.VN 5 0) (.VN 7 0)), (.Face (.VN 1 0) (.VN 7 0) (.VN 3 0))], [⟨0, [0], 0⟩, ⟨1, [0], 0⟩, ⟨2, [0], 0⟩, ⟨3, [0], 0⟩, ⟨4, [0], 0⟩, ⟨5, [0], 0⟩, ⟨6, [0], 0⟩, ⟨7, [0], 0⟩, ⟨8, [0], 0⟩, ⟨9, [0], 0⟩, ⟨10, [0], 0⟩, ⟨11, [0], 0⟩], [⟨none, [0, 1, 2, 3, 4, 5, 6, 7, 8, 9, 10, 11]⟩]⟩]⟩ : Out Obj.ErrorKind (Obj.ObjectSet Rat)) :=
  obj_of (by decide +kernel)


/-! ## src/mtl.rs -/

/-- `test_parse_f64` -/
example :
    let r1 := (Mtl.parse_f64 (F := Rat)) (Mtl.Parser.new b!"-1.929448")
    r1.1 = (.ok (dec b!"-1.929448")) := by decide +kernel

/-- `test_parse_usize` -/
example :
    let r1 := (Mtl.parse_usize) (Mtl.Parser.new b!"    763   ")
    r1.1 = (.ok 763) := by decide +kernel

/-- `test_parse_color` -/
example :
    let r1 := (Mtl.parse_color (F := Rat)) (Mtl.Parser.new b!"    0.1345345 0.63453 0.982430   ")
    r1.1 = (.ok ⟨(dec b!"0.1345345"), (dec b!"0.63453"), (dec b!"0.982430")⟩) := by decide +kernel

/-- `test_parse_ambient_component` -/
example :
    let r1 := (Mtl.parse_ambient_component (F := Rat)) (Mtl.Parser.new b!"Ka 0.1345345 0.63453 0.982430")
    r1.1 = (.ok ⟨(dec b!"0.1345345"), (dec b!"0.63453"), (dec b!"0.982430")⟩) := by decide +kernel

/-- `test_parse_diffuse_component` -/
example :
    let r1 := (Mtl.parse_diffuse_component (F := Rat)) (Mtl.Parser.new b!"Kd 0.1345345 0.63453 0.982430")
    r1.1 = (.ok ⟨(dec b!"0.1345345"), (dec b!"0.63453"), (dec b!"0.982430")⟩) := by decide +kernel

/-- `test_parse_specular_component` -/
example :
    let r1 := (Mtl.parse_specular_component (F := Rat)) (Mtl.Parser.new b!"Ks 0.1345345 0.63453 0.982430")
    r1.1 = (.ok ⟨(dec b!"0.1345345"), (dec b!"0.63453"), (dec b!"0.982430")⟩) := by decide +kernel

/-- `test_parse_emissive_component` -/
example :
    let r1 := (Mtl.parse_emissive_component (F := Rat)) (Mtl.Parser.new b!"Ke 0.1345345 0.63453 0.982430")
    r1.1 = (.ok ⟨(dec b!"0.1345345"), (dec b!"0.63453"), (dec b!"0.982430")⟩) := by decide +kernel

/-- `test_parse_dissolve_component` -/
example :
    let r1 := (Mtl.parse_dissolve_component (F := Rat)) (Mtl.Parser.new b!"d 0.24325634")
    r1.1 = (.ok (dec b!"0.24325634")) := by decide +kernel

/-- `test_parse_specular_exponent` -/
example :
    let r1 := (Mtl.parse_specular_exponent (F := Rat)) (Mtl.Parser.new b!"Ns 3.24325634")
    r1.1 = (.ok (dec b!"3.24325634")) := by decide +kernel

/-- `test_parse_optical_density` -/
example :
    let r1 := (Mtl.parse_optical_density (F := Rat)) (Mtl.Parser.new b!"Ni 1.24325634")
    r1.1 = (.ok (dec b!"1.24325634")) := by decide +kernel

/-- `test_parse_map_ambient` -/
example :
    let r1 := (Mtl.parse_map_ambient) (Mtl.Parser.new b!"map_Ka ambient.png")
    r1.1 = (.ok (some b!"ambient.png")) := by decide +kernel

/-- `test_parse_map_diffuse` -/
example :
    let r1 := (Mtl.parse_map_diffuse) (Mtl.Parser.new b!"map_Kd diffuse.png")
    r1.1 = (.ok (some b!"diffuse.png")) := by decide +kernel

/-- `test_parse_map_specular` -/
example :
    let r1 := (Mtl.parse_map_specular) (Mtl.Parser.new b!"map_Ks specular.png")
    r1.1 = (.ok (some b!"specular.png")) := by decide +kernel

/-- `test_parse_map_emissive` -/
example :
    let r1 := (Mtl.parse_map_emissive) (Mtl.Parser.new b!"map_Ke emissive.png")
    r1.1 = (.ok (some b!"emissive.png")) := by decide +kernel

/-- `test_parse_map_bump1` -/
example :
    let r1 := (Mtl.parse_map_bump) (Mtl.Parser.new b!"map_Bump normal.png")
    r1.1 = (.ok (some b!"normal.png")) := by decide +kernel

/-- `test_parse_map_bump2` -/
example :
    let r1 := (Mtl.parse_map_bump) (Mtl.Parser.new b!"bump normal.png")
    r1.1 = (.ok (some b!"normal.png")) := by decide +kernel

/-- `test_parse_map_displacement` -/
example :
    let r1 := (Mtl.parse_map_displacement) (Mtl.Parser.new b!"disp roughness.png")
    r1.1 = (.ok (some b!"roughness.png")) := by decide +kernel

/-- `test_parse_map_dissolve` -/
example :
    let r1 := (Mtl.parse_map_dissolve) (Mtl.Parser.new b!"map_d alpha.png")
    r1.1 = (.ok (some b!"alpha.png")) := by decide +kernel

/-- `test_parse_map_decal` -/
example :
    let r1 := (Mtl.parse_map_decal) (Mtl.Parser.new b!"decal decal.png")
    r1.1 = (.ok (some b!"decal.png")) := by decide +kernel

/-- `test_parse_illumination_model0` -/
example :
    let r1 := (Mtl.parse_illumination_model) (Mtl.Parser.new b!"illum 0")
    r1.1 = (.ok .Ambient) := by decide +kernel

/-- `test_parse_illumination_model1` -/
example :
    let r1 := (Mtl.parse_illumination_model) (Mtl.Parser.new b!"illum 1")
    r1.1 = (.ok .AmbientDiffuse) := by decide +kernel

/-- `test_parse_illumination_model2` -/
example :
    let r1 := (Mtl.parse_illumination_model) (Mtl.Parser.new b!"illum 2")
    r1.1 = (.ok .AmbientDiffuseSpecular) := by decide +kernel

/-- `test_parse_illumination_model3` -/
example :
    let r1 := (Mtl.parse_illumination_model) (Mtl.Parser.new b!"illum 3")
    isErr r1.1 = true ∧
    errKind? r1.1 = some .UnknownIlluminationModel := by decide +kernel

/-- `test_parse_newmtl1` -/
example :
    let r1 := (Mtl.parse_newmtl) (Mtl.Parser.new b!"newmtl material_name")
    r1.1 = (.ok b!"material_name") := by decide +kernel

/-- `test_parse_newmtl2` -/
example :
    let r1 := (Mtl.parse_newmtl) (Mtl.Parser.new b!"newmtl    ")
    isErr r1.1 = true := by decide +kernel

/-- `test_parse` -/
example : Mtl.parse (b!"\n        # Blender MTL File: 'None'      \\\n        # Materia" ++
    b!"l Count: 1             \\\n                                   " ++
    b!"     \\\n        newmtl Scene_-_Root             \\\n        Ns " ++
    b!"225.000000                   \\\n        Ka 1.000000 1.000000 " ++
    b!"1.000000   \\\n        Kd 0.800000 0.800000 0.800000   \\\n     " ++
    b!"   Ks 0.500000 0.500000 0.500000   \\\n        Ke 0.0 0.0 0.0 " ++
    b!"                 \\\n        Ni 1.450000                     \\" ++
    b!"\n        d 1.000000                      \\\n        illum 2  " ++
    b!"                       \\\n        map_Kd diffuse.jpg         " ++
    b!"     \\\n        map_Bump normal.png             \\\n        map" ++
    b!"_Ks specular.jpg             \\\n        disp displacement.jpg" ++
    b!"           \\\n        ") = (.ok ⟨[⟨b!"Scene_-_Root", ⟨(dec b!"1"), (dec b!"1"), (dec b!"1")⟩, ⟨(dec b!"0.8"), (dec b!"0.8"), (dec b!"0.8")⟩, ⟨(dec b!"0.5"), (dec b!"0.5"), (dec b!"0.5")⟩, ⟨(dec b!"0"), (dec b!"0"), (dec b!"0")⟩, (dec b!"225"), (dec b!"1"), (some (dec b!"1.45")), .AmbientDiffuseSpecular, none, (some b!"diffuse.jpg"), (some b!"specular.jpg"), none, none, (some b!"normal.png"), (some b!"displacement.jpg"), none, none⟩]⟩ : Out Mtl.ErrorKind (Mtl.MaterialSet Rat)) :=
  mtl_of (by decide +kernel)

/-- `test_parse_multiple_materials` -/
example : Mtl.parse (b!"\n        # Blender MTL File: 'None'                         " ++
    b!"                    \\\n        # Material Count: 1           " ++
    b!"                                         \\\n                 " ++
    b!"                                                            " ++
    b!"  \\\n        newmtl Scene_-_Root                             " ++
    b!"                       \\\n        Ns 225.000000              " ++
    b!"                                            \\\n        Ka 1.0" ++
    b!"00000 1.000000 1.000000                                     " ++
    b!"     \\\n        Kd 0.800000 0.800000 0.800000                " ++
    b!"                          \\\n        Ks 0.500000 0.500000 0.5" ++
    b!"00000                                          \\\n        Ke " ++
    b!"0.0 0.0 0.0                                                 " ++
    b!"        \\\n        Ni 1.450000                               " ++
    b!"                             \\\n        d 1.000000           " ++
    b!"                                                  \\\n        " ++
    b!"illum 2                                                     " ++
    b!"           \\\n        map_Kd diffuse.jpg                     " ++
    b!"                                \\\n        map_Bump normal.pn" ++
    b!"g                                                    \\\n     " ++
    b!"   map_Ks specular.jpg                                      " ++
    b!"              \\\n        disp displacement.jpg               " ++
    b!"                                   \\\n        decal decal.jpg" ++
    b!"                                                        \\\n  " ++
    b!"                                                            " ++
    b!"                 \\\n        # This is a bright green material" ++
    b!".  When applied to an object, it will \\\n        # remain bri" ++
    b!"ght green regardless of any lighting in the scene.         \\" ++
    b!"\n        newmtl neon_green                                  " ++
    b!"                    \\\n        Kd 0.0000 1.0000 0.0000       " ++
    b!"                                         \\\n        illum 0  " ++
    b!"                                                            " ++
    b!"  \\\n                                                        " ++
    b!"                       \\\n        # This is a flat green mate" ++
    b!"rial.                                       \\\n        newmtl" ++
    b!" flat_green                                                 " ++
    b!"     \\\n        Ka 0.0000 1.0000 0.0000                      " ++
    b!"                          \\\n        Kd 0.0000 1.0000 0.0000 " ++
    b!"                                               \\\n        ill" ++
    b!"um 1                                                        " ++
    b!"        \\\n                                                  " ++
    b!"                             \\\n        # This is a flat gree" ++
    b!"n, partially dissolved material.                  \\\n        " ++
    b!"newmtl diss_green                                           " ++
    b!"           \\\n        Ka 0.0000 1.0000 0.0000                " ++
    b!"                                \\\n        Kd 0.0000 1.0000 0" ++
    b!".0000                                                \\\n     " ++
    b!"   d 0.8000                                                 " ++
    b!"              \\\n        illum 1                             " ++
    b!"                                   \\\n                       " ++
    b!"                                                        \\\n  " ++
    b!"      # This is a shiny green material.  When applied to an " ++
    b!"object, it       \\\n        # shows a white specular highligh" ++
    b!"t.                                    \\\n        newmtl shiny" ++
    b!"_green                                                     \\" ++
    b!"\n        Ka 0.0000 1.0000 0.0000                            " ++
    b!"                    \\\n        Kd 0.0000 1.0000 0.0000       " ++
    b!"                                         \\\n        Ks 1.0000" ++
    b!" 1.0000 1.0000                                              " ++
    b!"  \\\n        Ns 200.0000                                     " ++
    b!"                       \\\n        illum 1                    " ++
    b!"                                            \\\n        ") = (.ok ⟨[⟨b!"Scene_-_Root", ⟨(dec b!"1"), (dec b!"1"), (dec b!"1")⟩, ⟨(dec b!"0.8"), (dec b!"0.8"), (dec b!"0.8")⟩, ⟨(dec b!"0.5"), (dec b!"0.5"), (dec b!"0.5")⟩, ⟨(dec b!"0"), (dec b!"0"), (dec b!"0")⟩, (dec b!"225"), (dec b!"1"), (some (dec b!"1.45")), .AmbientDiffuseSpecular, none, (some b!"diffuse.jpg"), (some b!"specular.jpg"), none, none, (some b!"normal.png"), (some b!"displacement.jpg"), none, (some b!"decal.jpg")⟩, ⟨b!"neon_green", ⟨dec b!"0", dec b!"0", dec b!"0"⟩, ⟨(dec b!"0"), (dec b!"1"), (dec b!"0")⟩, ⟨dec b!"0", dec b!"0", dec b!"0"⟩, ⟨dec b!"0", dec b!"0", dec b!"0"⟩, (dec b!"0"), (dec b!"1"), none, .Ambient, none, none, none, none, none, none, none, none, none⟩, ⟨b!"flat_green", ⟨(dec b!"0"), (dec b!"1"), (dec b!"0")⟩, ⟨(dec b!"0"), (dec b!"1"), (dec b!"0")⟩, ⟨dec b!"0", dec b!"0", dec b!"0"⟩, ⟨dec b!"0", dec b!"0", dec b!"0"⟩, (dec b!"0"), (dec b!"1"), none, .AmbientDiffuse, none, none, none, none, none, none, none, none, none⟩, ⟨b!"diss_green", ⟨(dec b!"0"), (dec b!"1"), (dec b!"0")⟩, ⟨(dec b!"0"), (dec b!"1"), (dec b!"0")⟩, ⟨dec b!"0", dec b!"0", dec b!"0"⟩, ⟨dec b!"0", dec b!"0", dec b!"0"⟩, (dec b!"0"), (dec b!"0.8"), none, .AmbientDiffuse, none, none, none, none, none, none, none, none, none⟩, ⟨b!"shiny_green", ⟨(dec b!"0"), (dec b!"1"), (dec b!"0")⟩, ⟨(dec b!"0"), (dec b!"1"), (dec b!"0")⟩, ⟨(dec b!"1"), (dec b!"1"), (dec b!"1")⟩, ⟨dec b!"0", dec b!"0", dec b!"0"⟩, (dec b!"200"), (dec b!"1"), none, .AmbientDiffuse, none, none, none, none, none, none, none, none, none⟩]⟩ : Out Mtl.ErrorKind (Mtl.MaterialSet Rat)) :=
  mtl_of (by decide +kernel)


/-! ## tests/test_mtl_parser.rs -/

/-- `test_cases, case 0` -/
example : Mtl.parse b!"" = (.ok ⟨[]⟩ : Out Mtl.ErrorKind (Mtl.MaterialSet Rat)) :=
  mtl_of (by decide +kernel)

/-- `test_cases, case 1` -/
example : Mtl.parse (b!"\n                    newmtl frost_wind\n                    K" ++
    b!"a 0.2 0.2 0.2\n                    Kd 0.6 0.6 0.6\n           " ++
    b!"         Ks 0.1 0.1 0.1\n                    d 1\n            " ++
    b!"        Ns 200\n                    illum 2\n                 " ++
    b!"   map_d window.png\n                ") = (.ok ⟨[⟨b!"frost_wind", ⟨(dec b!"0.2"), (dec b!"0.2"), (dec b!"0.2")⟩, ⟨(dec b!"0.6"), (dec b!"0.6"), (dec b!"0.6")⟩, ⟨(dec b!"0.1"), (dec b!"0.1"), (dec b!"0.1")⟩, ⟨(dec b!"0.0"), (dec b!"0.0"), (dec b!"0.0")⟩, (dec b!"200"), (dec b!"1"), none, .AmbientDiffuseSpecular, none, none, none, none, none, none, none, (some b!"window.png"), none⟩]⟩ : Out Mtl.ErrorKind (Mtl.MaterialSet Rat)) :=
  mtl_of (by decide +kernel)

/-- `test_cases, case 2` -/
example : Mtl.parse (b!"\n                    newmtl cube\n                    Ns 10.0" ++
    b!"000\n                    Ni 1.5000\n                    d 1.00" ++
    b!"00\n                    illum 2\n                    Ka 0.0000" ++
    b!" 0.0000 0.0000\n                    Kd 0.5880 0.5880 0.5880\n " ++
    b!"                   Ks 0.0000 0.0000 0.0000\n                 " ++
    b!"   Ke 0.3000 0.3000 0.3000\n                    map_Ka cube.p" ++
    b!"ng\n                    map_Kd cube.png\n                ") = (.ok ⟨[⟨b!"cube", ⟨(dec b!"0.0"), (dec b!"0.0"), (dec b!"0.0")⟩, ⟨(dec b!"0.5880"), (dec b!"0.5880"), (dec b!"0.5880")⟩, ⟨(dec b!"0.0"), (dec b!"0.0"), (dec b!"0.0")⟩, ⟨(dec b!"0.3"), (dec b!"0.3"), (dec b!"0.3")⟩, (dec b!"10.0"), (dec b!"1.0"), (some (dec b!"1.5")), .AmbientDiffuseSpecular, (some b!"cube.png"), (some b!"cube.png"), none, none, none, none, none, none, none⟩]⟩ : Out Mtl.ErrorKind (Mtl.MaterialSet Rat)) :=
  mtl_of (by decide +kernel)

/-- `test_cases, case 3` -/
example : Mtl.parse (b!"\n                    newmtl fresnel_blu\n                    " ++
    b!"Ka 0.0000 0.0000 0.0000\n                    Kd 0.0000 0.0000" ++
    b!" 0.0000\n                    Ks 0.6180 0.8760 0.1430\n        " ++
    b!"            Ns 200\n                    illum 1\n             " ++
    b!"       map_d fresnel_blu_dissolve.png\n\n                    n" ++
    b!"ewmtl real_windsh\n                    Ka 0.0000 0.0000 0.000" ++
    b!"0\n                    Kd 0.0000 0.0000 0.0000\n              " ++
    b!"      Ks 0.0000 0.0000 0.0000\n                    Ns 200\n   " ++
    b!"                 Ni 1.5000\n                    illum 2\n     " ++
    b!"               decal decal.jpg\n\n                    newmtl f" ++
    b!"resnel_win\n                    Ka 0.0000 0.0000 1.0000\n     " ++
    b!"               Kd 0.0000 0.0000 1.0000\n                    K" ++
    b!"s 0.6180 0.8760 0.1430\n                    Ns 200\n          " ++
    b!"          Ni 1.2000\n                    illum 0\n\n           " ++
    b!"         newmtl tin\n                    Ka 0.5000 0.5000 0.5" ++
    b!"000\n                    Kd 0.3000 0.2540 0.3128\n            " ++
    b!"        Ks 0.3245 0.2976 0.1234\n                    Ns 200\n " ++
    b!"                   illum 2\n                    map_Bump tin_" ++
    b!"bump.png\n                    map_Ka tin_Ka.png\n             " ++
    b!"       map_Kd tin_Kd.png\n                    map_Ks tin_Ks.p" ++
    b!"ng\n\n                    newmtl material\n                    " ++
    b!"Ni 3.4924\n                    illum 2\n                    d " ++
    b!"0.9\n                    map_Ke material_Ke.png\n             " ++
    b!"       map_Ka material_Ka.png\n                    map_Kd mat" ++
    b!"erial_Kd.png\n                    map_Ks material_Ks.png\n    " ++
    b!"                bump material_bump.png\n                    m" ++
    b!"ap_Ns material_Ns.png\n                    disp material_disp" ++
    b!"lacement.png\n\n                ") = (.ok ⟨[⟨b!"fresnel_blu", ⟨(dec b!"0.0"), (dec b!"0.0"), (dec b!"0.0")⟩, ⟨(dec b!"0.0"), (dec b!"0.0"), (dec b!"0.0")⟩, ⟨(dec b!"0.6180"), (dec b!"0.8760"), (dec b!"0.1430")⟩, ⟨(dec b!"0.0"), (dec b!"0.0"), (dec b!"0.0")⟩, (dec b!"200.0"), (dec b!"1.0"), none, .AmbientDiffuse, none, none, none, none, none, none, none, (some b!"fresnel_blu_dissolve.png"), none⟩, ⟨b!"real_windsh", ⟨(dec b!"0.0"), (dec b!"0.0"), (dec b!"0.0")⟩, ⟨(dec b!"0.0"), (dec b!"0.0"), (dec b!"0.0")⟩, ⟨(dec b!"0.0"), (dec b!"0.0"), (dec b!"0.0")⟩, ⟨(dec b!"0.0"), (dec b!"0.0"), (dec b!"0.0")⟩, (dec b!"200.0"), (dec b!"1.0"), (some (dec b!"1.5")), .AmbientDiffuseSpecular, none, none, none, none, none, none, none, none, (some b!"decal.jpg")⟩, ⟨b!"fresnel_win", ⟨(dec b!"0.0"), (dec b!"0.0"), (dec b!"1.0")⟩, ⟨(dec b!"0.0"), (dec b!"0.0"), (dec b!"1.0")⟩, ⟨(dec b!"0.6180"), (dec b!"0.8760"), (dec b!"0.1430")⟩, ⟨(dec b!"0.0"), (dec b!"0.0"), (dec b!"0.0")⟩, (dec b!"200.0"), (dec b!"1.0"), (some (dec b!"1.2000")), .Ambient, none, none, none, none, none, none, none, none, none⟩, ⟨b!"tin", ⟨(dec b!"0.5000"), (dec b!"0.5000"), (dec b!"0.5000")⟩, ⟨(dec b!"0.3000"), (dec b!"0.2540"), (dec b!"0.3128")⟩, ⟨(dec b!"0.3245"), (dec b!"0.2976"), (dec b!"0.1234")⟩, ⟨(dec b!"0.0"), (dec b!"0.0"), (dec b!"0.0")⟩, (dec b!"200.0"), (dec b!"1.0"), none, .AmbientDiffuseSpecular, (some b!"tin_Ka.png"), (some b!"tin_Kd.png"), (some b!"tin_Ks.png"), none, none, (some b!"tin_bump.png"), none, none, none⟩, ⟨b!"material", ⟨(dec b!"0.0000"), (dec b!"0.0000"), (dec b!"0.0000")⟩, ⟨(dec b!"0.0000"), (dec b!"0.0000"), (dec b!"0.0000")⟩, ⟨(dec b!"0.0000"), (dec b!"0.0000"), (dec b!"0.0000")⟩, ⟨(dec b!"0.0000"), (dec b!"0.0000"), (dec b!"0.0000")⟩, (dec b!"0.0"), (dec b!"0.9"), (some (dec b!"3.4924")), .AmbientDiffuseSpecular, (some b!"material_Ka.png"), (some b!"material_Kd.png"), (some b!"material_Ks.png"), (some b!"material_Ke.png"), (some b!"material_Ns.png"), (some b!"material_bump.png"), (some b!"material_displacement.png"), none, none⟩]⟩ : Out Mtl.ErrorKind (Mtl.MaterialSet Rat)) :=
  mtl_of (by decide +kernel)


/-! ## tests/test_obj_parser2.rs -/

/-- `test_cases, case 0` -/
example : Obj.parse debug (b!"\n                    o  Object0                             " ++
    b!"         \\\n                    v  -36.84435  -31.289864  -23" ++
    b!".619797  -8.21862  \\\n                    # 1 vertices       " ++
    b!"                             \\\n                             " ++
    b!"                                       \\\n                   " ++
    b!" vt  -44.275238  28.583176  -23.780418           \\\n         " ++
    b!"           # 1 texture vertices                            \\" ++
    b!"\n                                                           " ++
    b!"         \\\n                    vn  93.94331  -61.460472  -32" ++
    b!".00753             \\\n                    # 1 normal vertices" ++
    b!"                             \\\n                             " ++
    b!"                                       \\\n                   " ++
    b!" g  Group0                                       \\\n         " ++
    b!"           g  Group1                                       \\" ++
    b!"\n                    s  0                                   " ++
    b!"         \\\n                    g  Group2                    " ++
    b!"                   \\\n                    s  1               " ++
    b!"                             \\\n                    g  Group3" ++
    b!"                                       \\\n                   " ++
    b!" f 1/1/1 1/1/1 1/1/1                             \\\n         " ++
    b!"           # 1 elements                                    \\" ++
    b!"\n                                                           " ++
    b!"         \\\n                    g  Group4                    " ++
    b!"                   \\\n                    s  2               " ++
    b!"                             \\\n                    #### End " ++
    b!"Object 0                               \\\n                ") = (.ok ⟨[], [⟨b!"Object0", [⟨(dec b!"-36.84435"), (dec b!"-31.289864"), (dec b!"-23.619797"), (dec b!"-8.21862")⟩], [⟨(dec b!"-44.275238"), (dec b!"28.583176"), (dec b!"-23.780418")⟩], [⟨(dec b!"93.94331"), (dec b!"-61.460472"), (dec b!"-32.00753")⟩], [⟨b!"Group0"⟩, ⟨b!"Group1"⟩, ⟨b!"Group2"⟩, ⟨b!"Group3"⟩, ⟨b!"Group4"⟩], [⟨0⟩, ⟨1⟩, ⟨2⟩], [(.Face (.VTN 0 0 0) (.VTN 0 0 0) (.VTN 0 0 0))], [⟨0, [3], 1⟩], [⟨none, [0]⟩]⟩]⟩ : Out Obj.ErrorKind (Obj.ObjectSet Rat)) :=
  obj_of (by decide +kernel)

/-- `test_cases, case 1` -/
example : Obj.parse debug (b!"\n                    o  Object0                             " ++
    b!"        \\\n                    v  -36.84435  -31.289864  -23." ++
    b!"619797  -8.21862 \\\n                    # 1 vertices         " ++
    b!"                          \\\n                                " ++
    b!"                                   \\\n                    vt " ++
    b!" -44.275238  28.583176  -23.780418          \\\n              " ++
    b!"      # 1 texture vertices                           \\\n     " ++
    b!"                                                            " ++
    b!"  \\\n                    vn  93.94331  -61.460472  -32.00753 " ++
    b!"           \\\n                    # 1 normal vertices        " ++
    b!"                    \\\n                                      " ++
    b!"                             \\\n                    f 1/1/1 1" ++
    b!"/1/1 1/1/1                            \\\n                    " ++
    b!"# 1 elements                                   \\\n           " ++
    b!"                                                        \\\n  " ++
    b!"                  #### End Object 0                         " ++
    b!"     \\\n                ") = (.ok ⟨[], [⟨b!"Object0", [⟨(dec b!"-36.84435"), (dec b!"-31.289864"), (dec b!"-23.619797"), (dec b!"-8.21862")⟩], [⟨(dec b!"-44.275238"), (dec b!"28.583176"), (dec b!"-23.780418")⟩], [⟨(dec b!"93.94331"), (dec b!"-61.460472"), (dec b!"-32.00753")⟩], [⟨b!"default"⟩], [⟨0⟩], [(.Face (.VTN 0 0 0) (.VTN 0 0 0) (.VTN 0 0 0))], [⟨0, [0], 0⟩], [⟨none, [0]⟩]⟩]⟩ : Out Obj.ErrorKind (Obj.ObjectSet Rat)) :=
  obj_of (by decide +kernel)

/-- `test_cases, case 2` -/
example : Obj.parse debug (b!"\n                    # diamond.obj                          " ++
    b!" \\\n                                                         " ++
    b!"   \\\n                    g Object001                        " ++
    b!"     \\\n                                                     " ++
    b!"       \\\n                    v 0.000000E+00 0.000000E+00 78." ++
    b!"0000     \\\n                    v 45.0000 45.0000 0.000000E+0" ++
    b!"0          \\\n                    v 45.0000 -45.0000 0.000000" ++
    b!"E+00         \\\n                    v -45.0000 -45.0000 0.000" ++
    b!"000E+00        \\\n                    v -45.0000 45.0000 0.00" ++
    b!"0000E+00         \\\n                    v 0.000000E+00 0.0000" ++
    b!"00E+00 -78.0000    \\\n                                       " ++
    b!"                     \\\n                    f     1 2 3      " ++
    b!"                       \\\n                    f     1 3 4    " ++
    b!"                         \\\n                    f     1 4 5  " ++
    b!"                           \\\n                    f     1 5 2" ++
    b!"                             \\\n                    f     6 5" ++
    b!" 4                             \\\n                    f     6" ++
    b!" 4 3                             \\\n                    f    " ++
    b!" 6 3 2                             \\\n                    f  " ++
    b!"   6 2 1                             \\\n                    f" ++
    b!"     6 1 5                             \\\n                ") = (.ok ⟨[], [⟨b!"", [⟨(dec b!"0.0"), (dec b!"0.0"), (dec b!"78.0"), (dec b!"1.0")⟩, ⟨(dec b!"45.0"), (dec b!"45.0"), (dec b!"0.0"), (dec b!"1.0")⟩, ⟨(dec b!"45.0"), (dec b!"-45.0"), (dec b!"0.0"), (dec b!"1.0")⟩, ⟨(dec b!"-45.0"), (dec b!"-45.0"), (dec b!"0.0"), (dec b!"1.0")⟩, ⟨(dec b!"-45.0"), (dec b!"45.0"), (dec b!"0.0"), (dec b!"1.0")⟩, ⟨(dec b!"0.0"), (dec b!"0.0"), (dec b!"-78.0"), (dec b!"1.0")⟩], [], [], [⟨b!"Object001"⟩], [⟨0⟩], [(.Face (.V 0) (.V 1) (.V 2)), (.Face (.V 0) (.V 2) (.V 3)), (.Face (.V 0) (.V 3) (.V 4)), (.Face (.V 0) (.V 4) (.V 1)), (.Face (.V 5) (.V 4) (.V 3)), (.Face (.V 5) (.V 3) (.V 2)), (.Face (.V 5) (.V 2) (.V 1)), (.Face (.V 5) (.V 1) (.V 0)), (.Face (.V 5) (.V 0) (.V 4))], [⟨0, [0], 0⟩, ⟨1, [0], 0⟩, ⟨2, [0], 0⟩, ⟨3, [0], 0⟩, ⟨4, [0], 0⟩, ⟨5, [0], 0⟩, ⟨6, [0], 0⟩, ⟨7, [0], 0⟩, ⟨8, [0], 0⟩], [⟨none, [0, 1, 2, 3, 4, 5, 6, 7, 8]⟩]⟩]⟩ : Out Obj.ErrorKind (Obj.ObjectSet Rat)) :=
  obj_of (by decide +kernel)

/-- `test_cases, case 3` -/
example : Obj.parse debug (b!"\n                    mtllib master.mtl             \\\n       " ++
    b!"             o Object001                   \\\n               " ++
    b!"     v 0.000000 2.000000 2.000000  \\\n                    v 0" ++
    b!".000000 0.000000 2.000000  \\\n                    v 2.000000 " ++
    b!"0.000000 2.000000  \\\n                    v 2.000000 2.000000" ++
    b!" 2.000000  \\\n                    v 0.000000 2.000000 0.00000" ++
    b!"0  \\\n                    v 0.000000 0.000000 0.000000  \\\n   " ++
    b!"                 v 2.000000 0.000000 0.000000  \\\n           " ++
    b!"         v 2.000000 2.000000 0.000000  \\\n                   " ++
    b!" # 8 vertices                  \\\n                           " ++
    b!"                       \\\n                    g front        " ++
    b!"               \\\n                    usemtl red             " ++
    b!"       \\\n                    f 1 2 3 4                     \\" ++
    b!"\n                    g back                        \\\n       " ++
    b!"             usemtl blue                   \\\n               " ++
    b!"     f 8 7 6 5                     \\\n                    g r" ++
    b!"ight                       \\\n                    usemtl gree" ++
    b!"n                  \\\n                    f 4 3 7 8          " ++
    b!"           \\\n                    g top                      " ++
    b!"   \\\n                    usemtl gold                   \\\n   " ++
    b!"                 f 5 1 4 8                     \\\n           " ++
    b!"         g left                        \\\n                   " ++
    b!" usemtl orange                 \\\n                    f 5 6 2" ++
    b!" 1                     \\\n                    g bottom       " ++
    b!"               \\\n                    usemtl purple          " ++
    b!"       \\\n                    f 2 6 7 3                     \\" ++
    b!"\n                    # 6 elements                  \\\n       " ++
    b!"         ") = (.ok ⟨[b!"master.mtl"], [⟨b!"Object001", [⟨(dec b!"0.000000"), (dec b!"2.000000"), (dec b!"2.000000"), (dec b!"1.0")⟩, ⟨(dec b!"0.000000"), (dec b!"0.000000"), (dec b!"2.000000"), (dec b!"1.0")⟩, ⟨(dec b!"2.000000"), (dec b!"0.000000"), (dec b!"2.000000"), (dec b!"1.0")⟩, ⟨(dec b!"2.000000"), (dec b!"2.000000"), (dec b!"2.000000"), (dec b!"1.0")⟩, ⟨(dec b!"0.000000"), (dec b!"2.000000"), (dec b!"0.000000"), (dec b!"1.0")⟩, ⟨(dec b!"0.000000"), (dec b!"0.000000"), (dec b!"0.000000"), (dec b!"1.0")⟩, ⟨(dec b!"2.000000"), (dec b!"0.000000"), (dec b!"0.000000"), (dec b!"1.0")⟩, ⟨(dec b!"2.000000"), (dec b!"2.000000"), (dec b!"0.000000"), (dec b!"1.0")⟩], [], [], [⟨b!"front"⟩, ⟨b!"back"⟩, ⟨b!"right"⟩, ⟨b!"top"⟩, ⟨b!"left"⟩, ⟨b!"bottom"⟩], [⟨0⟩], [(.Face (.V 0) (.V 1) (.V 2)), (.Face (.V 0) (.V 2) (.V 3)), (.Face (.V 7) (.V 6) (.V 5)), (.Face (.V 7) (.V 5) (.V 4)), (.Face (.V 3) (.V 2) (.V 6)), (.Face (.V 3) (.V 6) (.V 7)), (.Face (.V 4) (.V 0) (.V 3)), (.Face (.V 4) (.V 3) (.V 7)), (.Face (.V 4) (.V 5) (.V 1)), (.Face (.V 4) (.V 1) (.V 0)), (.Face (.V 1) (.V 5) (.V 6)), (.Face (.V 1) (.V 6) (.V 2))], [⟨0, [0], 0⟩, ⟨1, [0], 0⟩, ⟨2, [1], 0⟩, ⟨3, [1], 0⟩, ⟨4, [2], 0⟩, ⟨5, [2], 0⟩, ⟨6, [3], 0⟩, ⟨7, [3], 0⟩, ⟨8, [4], 0⟩, ⟨9, [4], 0⟩, ⟨10, [5], 0⟩, ⟨11, [5], 0⟩], [⟨(some b!"red"), [0, 1]⟩, ⟨(some b!"blue"), [2, 3]⟩, ⟨(some b!"green"), [4, 5]⟩, ⟨(some b!"gold"), [6, 7]⟩, ⟨(some b!"orange"), [8, 9]⟩, ⟨(some b!"purple"), [10, 11]⟩]⟩]⟩ : Out Obj.ErrorKind (Obj.ObjectSet Rat)) :=
  obj_of (by decide +kernel)

/-- `test_cases, case 4` -/
example : Obj.parse debug (b!"\n                    mtllib material_library.mtl   \\\n       " ++
    b!"             o Object001                   \\\n               " ++
    b!"     v 0.000000 2.000000 0.000000  \\\n                    v 0" ++
    b!".000000 0.000000 0.000000  \\\n                    v 2.000000 " ++
    b!"0.000000 0.000000  \\\n                    v 2.000000 2.000000" ++
    b!" 0.000000  \\\n                    v 4.000000 0.000000 -1.2552" ++
    b!"98 \\\n                    v 4.000000 2.000000 -1.255298 \\\n   " ++
    b!"                 vn 0.000000 0.000000 1.000000 \\\n           " ++
    b!"         vn 0.000000 0.000000 1.000000 \\\n                   " ++
    b!" vn 0.276597 0.000000 0.960986 \\\n                    vn 0.27" ++
    b!"6597 0.000000 0.960986 \\\n                    vn 0.531611 0.0" ++
    b!"00000 0.846988 \\\n                    vn 0.531611 0.000000 0." ++
    b!"846988 \\\n                    # 6 vertices                  \\" ++
    b!"\n                    # 6 normals                   \\\n       " ++
    b!"                                           \\\n               " ++
    b!"     usemtl material1              \\\n                    g a" ++
    b!"ll                         \\\n                    s 1        " ++
    b!"                   \\\n                    f 1//1 2//2 3//3 4/" ++
    b!"/4         \\\n                    f 4//4 3//3 5//5 6//6      " ++
    b!"   \\\n                    # 2 elements                  \\\n   " ++
    b!"                                               \\\n           " ++
    b!"         #### End Object001            \\\n                   " ++
    b!"                               \\\n                    o Objec" ++
    b!"t002                   \\\n                    v 0.000000 2.00" ++
    b!"0000 0.000000  \\\n                    v 0.000000 0.000000 0.0" ++
    b!"00000  \\\n                    v 2.000000 0.000000 0.000000  \\" ++
    b!"\n                    v 2.000000 2.000000 0.000000  \\\n       " ++
    b!"             v 4.000000 0.000000 -1.255298 \\\n               " ++
    b!"     v 4.000000 2.000000 -1.255298 \\\n                    vn " ++
    b!"0.000000 0.000000 1.000000 \\\n                    vn 0.000000" ++
    b!" 0.000000 1.000000 \\\n                    vn 0.276597 0.00000" ++
    b!"0 0.960986 \\\n                    vn 0.276597 0.000000 0.9609" ++
    b!"86 \\\n                    vn 0.531611 0.000000 0.846988 \\\n   " ++
    b!"                 vn 0.531611 0.000000 0.846988 \\\n           " ++
    b!"         # 6 vertices                  \\\n                   " ++
    b!" # 6 normals                   \\\n                           " ++
    b!"                       \\\n                    usemtl material" ++
    b!"2              \\\n                    g all                  " ++
    b!"       \\\n                    s 1                           \\" ++
    b!"\n                    f 7//7   8//8 9//9   10//10   \\\n       " ++
    b!"             f 10//10 9//9 11//11 12//12   \\\n               " ++
    b!"     # 2 elements                  \\\n                       " ++
    b!"                           \\\n                    #### End Ob" ++
    b!"ject002            \\\n                                       " ++
    b!"           \\\n                    o Object003                " ++
    b!"   \\\n                    v 0.000000 2.000000 0.000000  \\\n   " ++
    b!"                 v 0.000000 0.000000 0.000000  \\\n           " ++
    b!"         v 2.000000 0.000000 0.000000  \\\n                   " ++
    b!" v 2.000000 2.000000 0.000000  \\\n                    v 4.000" ++
    b!"000 0.000000 -1.255298 \\\n                    v 4.000000 2.00" ++
    b!"0000 -1.255298 \\\n                    vn 0.000000 0.000000 1." ++
    b!"000000 \\\n                    vn 0.000000 0.000000 1.000000 \\" ++
    b!"\n                    vn 0.276597 0.000000 0.960986 \\\n       " ++
    b!"             vn 0.276597 0.000000 0.960986 \\\n               " ++
    b!"     vn 0.531611 0.000000 0.846988 \\\n                    vn " ++
    b!"0.531611 0.000000 0.846988 \\\n                    # 6 vertice" ++
    b!"s                  \\\n                    # 6 normals        " ++
    b!"           \\\n                                               " ++
    b!"   \\\n                    usemtl material3              \\\n   " ++
    b!"                 g all                         \\\n           " ++
    b!"         s 1                           \\\n                   " ++
    b!" f 13//13 14//14 15//15 16//16 \\\n                    f 16//1" ++
    b!"6 15//15 17//17 18//18 \\\n                    # 2 elements   " ++
    b!"               \\\n                                           " ++
    b!"       \\\n                    #### End Object003            \\" ++
    b!"\n                ") = (.ok ⟨[b!"material_library.mtl"], [⟨b!"Object001", [⟨(dec b!"0.000000"), (dec b!"2.000000"), (dec b!"0.000000"), (dec b!"1.0")⟩, ⟨(dec b!"0.000000"), (dec b!"0.000000"), (dec b!"0.000000"), (dec b!"1.0")⟩, ⟨(dec b!"2.000000"), (dec b!"0.000000"), (dec b!"0.000000"), (dec b!"1.0")⟩, ⟨(dec b!"2.000000"), (dec b!"2.000000"), (dec b!"0.000000"), (dec b!"1.0")⟩, ⟨(dec b!"4.000000"), (dec b!"0.000000"), (dec b!"-1.255298"), (dec b!"1.0")⟩, ⟨(dec b!"4.000000"), (dec b!"2.000000"), (dec b!"-1.255298"), (dec b!"1.0")⟩], [], [⟨(dec b!"0.000000"), (dec b!"0.000000"), (dec b!"1.000000")⟩, ⟨(dec b!"0.000000"), (dec b!"0.000000"), (dec b!"1.000000")⟩, ⟨(dec b!"0.276597"), (dec b!"0.000000"), (dec b!"0.960986")⟩, ⟨(dec b!"0.276597"), (dec b!"0.000000"), (dec b!"0.960986")⟩, ⟨(dec b!"0.531611"), (dec b!"0.000000"), (dec b!"0.846988")⟩, ⟨(dec b!"0.531611"), (dec b!"0.000000"), (dec b!"0.846988")⟩], [⟨b!"all"⟩], [⟨1⟩], [(.Face (.VN 0 0) (.VN 1 1) (.VN 2 2)), (.Face (.VN 0 0) (.VN 2 2) (.VN 3 3)), (.Face (.VN 3 3) (.VN 2 2) (.VN 4 4)), (.Face (.VN 3 3) (.VN 4 4) (.VN 5 5))], [⟨0, [0], 0⟩, ⟨1, [0], 0⟩, ⟨2, [0], 0⟩, ⟨3, [0], 0⟩], [⟨(some b!"material1"), [0, 1, 2, 3]⟩]⟩, ⟨b!"Object002", [⟨(dec b!"0.000000"), (dec b!"2.000000"), (dec b!"0.000000"), (dec b!"1.0")⟩, ⟨(dec b!"0.000000"), (dec b!"0.000000"), (dec b!"0.000000"), (dec b!"1.0")⟩, ⟨(dec b!"2.000000"), (dec b!"0.000000"), (dec b!"0.000000"), (dec b!"1.0")⟩, ⟨(dec b!"2.000000"), (dec b!"2.000000"), (dec b!"0.000000"), (dec b!"1.0")⟩, ⟨(dec b!"4.000000"), (dec b!"0.000000"), (dec b!"-1.255298"), (dec b!"1.0")⟩, ⟨(dec b!"4.000000"), (dec b!"2.000000"), (dec b!"-1.255298"), (dec b!"1.0")⟩], [], [⟨(dec b!"0.000000"), (dec b!"0.000000"), (dec b!"1.000000")⟩, ⟨(dec b!"0.000000"), (dec b!"0.000000"), (dec b!"1.000000")⟩, ⟨(dec b!"0.276597"), (dec b!"0.000000"), (dec b!"0.960986")⟩, ⟨(dec b!"0.276597"), (dec b!"0.000000"), (dec b!"0.960986")⟩, ⟨(dec b!"0.531611"), (dec b!"0.000000"), (dec b!"0.846988")⟩, ⟨(dec b!"0.531611"), (dec b!"0.000000"), (dec b!"0.846988")⟩], [⟨b!"all"⟩], [⟨1⟩], [(.Face (.VN 0 0) (.VN 1 1) (.VN 2 2)), (.Face (.VN 0 0) (.VN 2 2) (.VN 3 3)), (.Face (.VN 3 3) (.VN 2 2) (.VN 4 4)), (.Face (.VN 3 3) (.VN 4 4) (.VN 5 5))], [⟨0, [0], 0⟩, ⟨1, [0], 0⟩, ⟨2, [0], 0⟩, ⟨3, [0], 0⟩], [⟨(some b!"material2"), [0, 1, 2, 3]⟩]⟩, ⟨b!"Object003", [⟨(dec b!"0.000000"), (dec b!"2.000000"), (dec b!"0.000000"), (dec b!"1.0")⟩, ⟨(dec b!"0.000000"), (dec b!"0.000000"), (dec b!"0.000000"), (dec b!"1.0")⟩, ⟨(dec b!"2.000000"), (dec b!"0.000000"), (dec b!"0.000000"), (dec b!"1.0")⟩, ⟨(dec b!"2.000000"), (dec b!"2.000000"), (dec b!"0.000000"), (dec b!"1.0")⟩, ⟨(dec b!"4.000000"), (dec b!"0.000000"), (dec b!"-1.255298"), (dec b!"1.0")⟩, ⟨(dec b!"4.000000"), (dec b!"2.000000"), (dec b!"-1.255298"), (dec b!"1.0")⟩], [], [⟨(dec b!"0.000000"), (dec b!"0.000000"), (dec b!"1.000000")⟩, ⟨(dec b!"0.000000"), (dec b!"0.000000"), (dec b!"1.000000")⟩, ⟨(dec b!"0.276597"), (dec b!"0.000000"), (dec b!"0.960986")⟩, ⟨(dec b!"0.276597"), (dec b!"0.000000"), (dec b!"0.960986")⟩, ⟨(dec b!"0.531611"), (dec b!"0.000000"), (dec b!"0.846988")⟩, ⟨(dec b!"0.531611"), (dec b!"0.000000"), (dec b!"0.846988")⟩], [⟨b!"all"⟩], [⟨1⟩], [(.Face (.VN 0 0) (.VN 1 1) (.VN 2 2)), (.Face (.VN 0 0) (.VN 2 2) (.VN 3 3)), (.Face (.VN 3 3) (.VN 2 2) (.VN 4 4)), (.Face (.VN 3 3) (.VN 4 4) (.VN 5 5))], [⟨0, [0], 0⟩, ⟨1, [0], 0⟩, ⟨2, [0], 0⟩, ⟨3, [0], 0⟩], [⟨(some b!"material3"), [0, 1, 2, 3]⟩]⟩]⟩ : Out Obj.ErrorKind (Obj.ObjectSet Rat)) :=
  obj_of (by decide +kernel)


/-! ## tests/test_obj_parser3.rs -/

/-- `test_case: assets/cube_vt.obj` -/
example : Obj.parse debug (b!"# cube_vt.obj\n#\n\ng cube\n\nv  0.0  0.0  0.0\nv  0.0  0.0  1.0\nv" ++
    b!"  0.0  1.0  0.0\nv  0.0  1.0  1.0\nv  1.0  0.0  0.0\nv  1.0  0." ++
    b!"0  1.0\nv  1.0  1.0  0.0\nv  1.0  1.0  1.0\n# 8 vertices\n\nvt  0" ++
    b!".0   0.66666666\nvt  0.25  0.66666666\nvt  0.0   0.33333333\nvt" ++
    b!"  0.25  1.0\nvt  0.5   1.0\nvt  0.5   0.66666666\nvt  0.25  0.3" ++
    b!"3333333\nvt  0.50  0.33333333\nvt  0.75  0.66666666\nvt  0.75  " ++
    b!"0.33333333\nvt  1.0   0.66666666\nvt  1.0   0.33333333\nvt  0.5" ++
    b!"   0.0\nvt  0.25  0.0\n# 14 texture vertices\n\nvn  0.0  0.0  1." ++
    b!"0\nvn  0.0  0.0 -1.0\nvn  0.0  1.0  0.0\nvn  0.0 -1.0  0.0\nvn  " ++
    b!"1.0  0.0  0.0\nvn -1.0  0.0  0.0\n# 6 normal vertices\n\nf  1/2/" ++
    b!"2   7/3/2   5/1/2\nf  1/2/2   3/7/2   7/3/2\nf  1/5/6   4/2/6 " ++
    b!"  3/4/6\nf  1/5/6   2/6/6   4/2/6\nf  3/6/3   8/7/3   7/2/3\nf " ++
    b!" 3/6/3   4/8/3   8/7/3\nf  5/8/5   7/14/5  8/7/5\nf  5/8/5   8" ++
    b!"/13/5  6/14/5\nf  1/9/4   5/8/4   6/6/4\nf  1/9/4   6/10/4  2/" ++
    b!"8/4\nf  2/11/1  6/10/1  8/9/1\nf  2/11/1  8/12/1  4/10/1\n# 12 " ++
    b!"face elements\n") = (.ok ⟨[], [⟨b!"", [⟨(dec b!"0.0"), (dec b!"0.0"), (dec b!"0.0"), (dec b!"1.0")⟩, ⟨(dec b!"0.0"), (dec b!"0.0"), (dec b!"1.0"), (dec b!"1.0")⟩, ⟨(dec b!"0.0"), (dec b!"1.0"), (dec b!"0.0"), (dec b!"1.0")⟩, ⟨(dec b!"0.0"), (dec b!"1.0"), (dec b!"1.0"), (dec b!"1.0")⟩, ⟨(dec b!"1.0"), (dec b!"0.0"), (dec b!"0.0"), (dec b!"1.0")⟩, ⟨(dec b!"1.0"), (dec b!"0.0"), (dec b!"1.0"), (dec b!"1.0")⟩, ⟨(dec b!"1.0"), (dec b!"1.0"), (dec b!"0.0"), (dec b!"1.0")⟩, ⟨(dec b!"1.0"), (dec b!"1.0"), (dec b!"1.0"), (dec b!"1.0")⟩], [⟨(dec b!"0.0"), (dec b!"0.66666666"), (dec b!"0.0")⟩, ⟨(dec b!"0.25"), (dec b!"0.66666666"), (dec b!"0.0")⟩, ⟨(dec b!"0.0"), (dec b!"0.33333333"), (dec b!"0.0")⟩, ⟨(dec b!"0.25"), (dec b!"1.0"), (dec b!"0.0")⟩, ⟨(dec b!"0.5"), (dec b!"1.0"), (dec b!"0.0")⟩, ⟨(dec b!"0.5"), (dec b!"0.66666666"), (dec b!"0.0")⟩, ⟨(dec b!"0.25"), (dec b!"0.33333333"), (dec b!"0.0")⟩, ⟨(dec b!"0.5"), (dec b!"0.33333333"), (dec b!"0.0")⟩, ⟨(dec b!"0.75"), (dec b!"0.66666666"), (dec b!"0.0")⟩, ⟨(dec b!"0.75"), (dec b!"0.33333333"), (dec b!"0.0")⟩, ⟨(dec b!"1.0"), (dec b!"0.66666666"), (dec b!"0.0")⟩, ⟨(dec b!"1.0"), (dec b!"0.33333333"), (dec b!"0.0")⟩, ⟨(dec b!"0.5"), (dec b!"0.0"), (dec b!"0.0")⟩, ⟨(dec b!"0.25"), (dec b!"0.0"), (dec b!"0.0")⟩], [⟨(dec b!"0.0"), (dec b!"0.0"), (dec b!"1.0")⟩, ⟨(dec b!"0.0"), (dec b!"0.0"), (dec b!"-1.0")⟩, ⟨(dec b!"0.0"), (dec b!"1.0"), (dec b!"0.0")⟩, ⟨(dec b!"0.0"), (dec b!"-1.0"), (dec b!"0.0")⟩, ⟨(dec b!"1.0"), (dec b!"0.0"), (dec b!"0.0")⟩, ⟨(dec b!"-1.0"), (dec b!"0.0"), (dec b!"0.0")⟩], [⟨b!"cube"⟩], [⟨0⟩], [(.Face (.VTN 0 1 1) (.VTN 6 2 1) (.VTN 4 0 1)), (.Face (.VTN 0 1 1) (.VTN 2 6 1) (.VTN 6 2 1)), (.Face (.VTN 0 4 5) (.VTN 3 1 5) (.VTN 2 3 5)), (.Face (.VTN 0 4 5) (.VTN 1 5 5) (.VTN 3 1 5)), (.Face (.VTN 2 5 2) (.VTN 7 6 2) (.VTN 6 1 2)), (.Face (.VTN 2 5 2) (.VTN 3 7 2) (.VTN 7 6 2)), (.Face (.VTN 4 7 4) (.VTN 6 13 4) (.VTN 7 6 4)), (.Face (.VTN 4 7 4) (.VTN 7 12 4) (.VTN 5 13 4)), (.Face (.VTN 0 8 3) (.VTN 4 7 3) (.VTN 5 5 3)), (.Face (.VTN 0 8 3) (.VTN 5 9 3) (.VTN 1 7 3)), (.Face (.VTN 1 10 0) (.VTN 5 9 0) (.VTN 7 8 0)), (.Face (.VTN 1 10 0) (.VTN 7 11 0) (.VTN 3 9 0))], [⟨0, [0], 0⟩, ⟨1, [0], 0⟩, ⟨2, [0], 0⟩, ⟨3, [0], 0⟩, ⟨4, [0], 0⟩, ⟨5, [0], 0⟩, ⟨6, [0], 0⟩, ⟨7, [0], 0⟩, ⟨8, [0], 0⟩, ⟨9, [0], 0⟩, ⟨10, [0], 0⟩, ⟨11, [0], 0⟩], [⟨none, [0, 1, 2, 3, 4, 5, 6, 7, 8, 9, 10, 11]⟩]⟩]⟩ : Out Obj.ErrorKind (Obj.ObjectSet Rat)) :=
  obj_of (by decide +kernel)


/-! ## tests/test_obj_parser.rs -/

end Verif.Tests
