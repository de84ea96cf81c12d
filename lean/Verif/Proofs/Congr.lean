import Verif.Proofs.ObjTop
import Verif.Proofs.MtlFile
import Verif.Proofs.Text2

/-!
# The parsers see only the tokens
-/

namespace Verif

open Spec

variable {F : Type} [FloatSem F]

theorem Obj.parse_congr {cfg : Obj.Cfg} {a b : Bytes} (ha : a.length < 2 ^ 63) (hb : b.length < 2 ^ 63)
    (h : tokens a = tokens b) :
    (Obj.parse cfg a : Out Obj.ErrorKind (Obj.ObjectSet F)) = Obj.parse cfg b := by
  rcases Obj.file_total cfg (tokens a) with ⟨file, hf⟩ | ⟨k, m, rest, hf⟩ | ⟨x, hf⟩
  · rw [Obj.parse_ok_of ha hf, Obj.parse_ok_of hb (h ▸ hf)]
  · rw [Obj.parse_err_of ha hf, Obj.parse_err_of hb (h ▸ hf), h]
  · rw [Obj.parse_panic_of ha hf, Obj.parse_panic_of hb (h ▸ hf)]

theorem Mtl.parse_congr {a b : Bytes} (h : tokens a = tokens b) :
    (Mtl.parse a : Out Mtl.ErrorKind (Mtl.MaterialSet F)) = Mtl.parse b := by
  rcases Mtl.file_total (tokens a) with ⟨file, hf⟩ | ⟨k, m, rest, hf⟩
  · rw [Mtl.parse_ok_of hf, Mtl.parse_ok_of (h ▸ hf)]
  · rw [Mtl.parse_err_of hf, Mtl.parse_err_of (h ▸ hf), h]

end Verif
