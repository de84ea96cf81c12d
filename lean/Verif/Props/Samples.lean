import Verif.Proofs.Congr

/-!
# Inputs used to show that the hypotheses of the theorems can be met
-/

namespace Verif.Props

open Verif

/-- The text itself as its floating point value, so that examples can be computed. -/
instance : FloatSem Bytes := ⟨id, b!"0", b!"1"⟩

/-- A debug build and a release build. -/
def debug : Obj.Cfg := ⟨true, true⟩
def release : Obj.Cfg := ⟨false, false⟩

/-- An OBJ file with two objects. -/
def sample : Bytes :=
  b!"# a comment\nmtllib a.mtl b.mtl\n\nv 0 0 0\nv 1 0 0 2\nv 1 1 0\nv 0 1 0\nvt 0 1\nvn 0 0 1\n" ++
  b!"g left top\ns 1\nusemtl red\nf 1/1/1 2/1/1 3/1/1 4/1/1\ng\nl 1//1 2//1 3//1\np 1 2\n" ++
  b!"o second\nv 5 5 5\ng\np 5\ns off\nusemtl blue\np 5 5\n"

def sampleResult : Obj.ObjectSet Bytes where
  material_libraries := [b!"a.mtl", b!"b.mtl"]
  objects :=
    [{ name := []
       vertex_set := [⟨b!"0", b!"0", b!"0", b!"1"⟩, ⟨b!"1", b!"0", b!"0", b!"2"⟩,
         ⟨b!"1", b!"1", b!"0", b!"1"⟩, ⟨b!"0", b!"1", b!"0", b!"1"⟩]
       texture_vertex_set := [⟨b!"0", b!"1", b!"0"⟩]
       normal_vertex_set := [⟨b!"0", b!"0", b!"1"⟩]
       group_set := [⟨b!"left"⟩, ⟨b!"top"⟩]
       smoothing_group_set := [⟨1⟩]
       element_set := [.Face (.VTN 0 0 0) (.VTN 1 0 0) (.VTN 2 0 0),
         .Face (.VTN 0 0 0) (.VTN 2 0 0) (.VTN 3 0 0),
         .Line (.VN 0 0) (.VN 1 0), .Line (.VN 1 0) (.VN 2 0), .Point (.V 0), .Point (.V 1)]
       shape_set := [⟨0, [0, 1], 0⟩, ⟨1, [0, 1], 0⟩, ⟨2, [], 0⟩, ⟨3, [], 0⟩, ⟨4, [], 0⟩, ⟨5, [], 0⟩]
       geometry_set := [⟨some b!"red", [0, 1, 2, 3, 4, 5]⟩] },
     { name := b!"second"
       vertex_set := [⟨b!"5", b!"5", b!"5", b!"1"⟩]
       texture_vertex_set := []
       normal_vertex_set := []
       group_set := [⟨b!"default"⟩]
       smoothing_group_set := [⟨0⟩, ⟨0⟩]
       element_set := [.Point (.V 0), .Point (.V 0), .Point (.V 0)]
       shape_set := [⟨0, [0], 0⟩, ⟨1, [0], 1⟩, ⟨2, [0], 1⟩]
       geometry_set := [⟨none, [0]⟩, ⟨some b!"blue", [1, 2]⟩] }]

theorem sample_parses : Obj.parse debug sample = .ok sampleResult := by decide +kernel

theorem sample_length : sample.length < 2 ^ 63 := by decide +kernel

theorem sample_file : ∃ file, Spec.Obj.FileOk debug (Spec.tokens sample) file ∧
    sampleResult = Spec.Obj.meaning file :=
  (Obj.parse_ok_iff sample_length).mp sample_parses

end Verif.Props
