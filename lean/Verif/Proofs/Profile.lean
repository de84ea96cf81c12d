import Verif.Proofs.ObjTop

/-!
# How the language of OBJ files depends on the build profile

Whatever a build with more checks accepts or rejects, a build with fewer checks accepts or
rejects in the same way.
-/

namespace Verif.Spec.Obj

open Verif Verif.Obj

variable {c c' : Cfg} {lo hi : Counts}

theorem numErr_profile (hc : c'.overflow_checks = true → c.overflow_checks = true) {a b : Nat} {t k m}
    (h : NumErr c a b t k m) : NumErr c' a b t k m := by
  cases h with
  | notInt h => exact .notInt h
  | range k h1 h2 h3 => exact .range k h1 h2 fun ⟨h, h'⟩ => h3 ⟨hc h, h'⟩

theorem numPanic_profile (hc : c.overflow_checks = true → c'.overflow_checks = true) {b : Nat} {t}
    (h : NumPanic c b t) : NumPanic c' b t := by
  obtain ⟨k, h1, h2, h3⟩ := h
  exact ⟨k, h1, hc h2, h3⟩

theorem refErr_profile (hc : c'.overflow_checks = true → c.overflow_checks = true) {t k m}
    (h : RefErr c lo hi t k m) : RefErr c' lo hi t k m := by
  cases h with
  | v h1 h2 => exact .v h1 (numErr_profile hc h2)
  | vt h0 h1 h2 => exact .vt h0 h1 (numErr_profile hc h2)
  | vn h0 h0' h1 h2 => exact .vn h0 h0' h1 (numErr_profile hc h2)
  | shape h0 h1 h2 h3 => exact .shape h0 h1 h2 h3

theorem refPanic_profile (hc : c.overflow_checks = true → c'.overflow_checks = true) {t}
    (h : RefPanic c lo hi t) : RefPanic c' lo hi t := by
  cases h with
  | v h1 h2 => exact .v h1 (numPanic_profile hc h2)
  | vt h0 h1 h2 => exact .vt h0 h1 (numPanic_profile hc h2)
  | vn h0 h0' h1 h2 => exact .vn h0 h0' h1 (numPanic_profile hc h2)

theorem stop_profile (hc : c'.overflow_checks = true → c.overflow_checks = true) {toks rest}
    (h : Stop c lo hi toks rest) : Stop c' lo hi toks rest := by
  rcases h with ⟨t, k, m, e, h⟩ | h
  · exact .inl ⟨t, k, m, e, refErr_profile hc h⟩
  · exact .inr h

theorem stmt_profile (hc : c'.overflow_checks = true → c.overflow_checks = true) {it toks rest}
    (h : Stmt c lo hi it toks rest) : Stmt c' lo hi it toks rest := by
  cases h with
  | v3 h1 h2 h3 h4 => exact .v3 h1 h2 h3 h4
  | v4 h1 h2 h3 h4 => exact .v4 h1 h2 h3 h4
  | vt1 h1 h2 => exact .vt1 h1 h2
  | vt2 h1 h2 h3 => exact .vt2 h1 h2 h3
  | vt3 h1 h2 h3 => exact .vt3 h1 h2 h3
  | vn h1 h2 h3 => exact .vn h1 h2 h3
  | g h1 h2 => exact .g h1 h2
  | s h => exact .s h
  | usemtl => exact .usemtl
  | p h1 h2 h3 => exact .p h1 h2 h3
  | l h1 h2 h3 h4 => exact .l h1 h2 h3 (stop_profile hc h4)
  | f h1 h2 h3 h4 => exact .f h1 h2 h3 (stop_profile hc h4)

theorem stmtErr_profile (hc : c'.overflow_checks = true → c.overflow_checks = true) {toks k m rest}
    (h : StmtErr c lo hi toks k m rest) : StmtErr c' lo hi toks k m rest := by
  cases h with
  | v_eof h1 h2 => exact .v_eof h1 h2
  | v_bad h1 h2 h3 => exact .v_bad h1 h2 h3
  | vt_eof => exact .vt_eof
  | vt_bad h => exact .vt_bad h
  | vn_eof h1 h2 => exact .vn_eof h1 h2
  | vn_bad h1 h2 h3 => exact .vn_bad h1 h2 h3
  | s_eof => exact .s_eof
  | s_bad h => exact .s_bad h
  | usemtl_eof => exact .usemtl_eof
  | p_eof => exact .p_eof
  | p_bad h1 h2 h3 => exact .p_bad h1 (numErr_profile hc h2) h3
  | l_eof h1 h2 => exact .l_eof h1 h2
  | l_bad h1 h2 h3 => exact .l_bad h1 h2 (refErr_profile hc h3)
  | l_mixed h1 h2 h3 h4 => exact .l_mixed h1 h2 h3 (stop_profile hc h4)
  | f_few h1 h2 h3 => exact .f_few h1 h2 (stop_profile hc h3)
  | f_mixed h1 h2 h3 h4 => exact .f_mixed h1 h2 h3 (stop_profile hc h4)
  | unknown h => exact .unknown h

theorem stmtPanic_profile (hc : c.overflow_checks = true → c'.overflow_checks = true) {toks rest}
    (h : StmtPanic c lo hi toks rest) : StmtPanic c' lo hi toks rest := by
  cases h with
  | p h1 h2 => exact .p h1 (numPanic_profile hc h2)
  | l h1 h2 => exact .l h1 (refPanic_profile hc h2)
  | f h1 h2 => exact .f h1 (refPanic_profile hc h2)

theorem body_profile (hc : c'.overflow_checks = true → c.overflow_checks = true) {items toks rest}
    (h : Body c lo hi items toks rest) : Body c' lo hi items toks rest := by
  induction h with
  | done h => exact .done h
  | blank _ ih => exact .blank ih
  | stmt h _ ih => exact .stmt (stmt_profile hc h) ih

theorem bodyErr_profile (hc : c'.overflow_checks = true → c.overflow_checks = true) {toks k m rest}
    (h : BodyErr c lo hi toks k m rest) : BodyErr c' lo hi toks k m rest := by
  induction h with
  | here h => exact .here (stmtErr_profile hc h)
  | blank _ ih => exact .blank ih
  | later h _ ih => exact .later (stmt_profile hc h) ih

theorem bodyPanic_profile (hc : c.overflow_checks = c'.overflow_checks) {toks rest}
    (h : BodyPanic c lo hi toks rest) : BodyPanic c' lo hi toks rest := by
  induction h with
  | here h => exact .here (stmtPanic_profile (by simp [hc]) h)
  | blank _ ih => exact .blank ih
  | later h _ ih => exact .later (stmt_profile (by simp [hc]) h) ih

theorem objects_profile (hc : c'.overflow_checks = true → c.overflow_checks = true) {objs toks}
    (h : Objects c lo objs toks) : Objects c' lo objs toks := by
  induction h with
  | done => exact .done
  | obj h1 h2 h3 _ ih => exact .obj h1 (body_profile hc h2) h3 ih

theorem objectsErr_profile (hc : c'.overflow_checks = true → c.overflow_checks = true) {toks k m rest}
    (h : ObjectsErr c lo toks k m rest) : ObjectsErr c' lo toks k m rest := by
  induction h with
  | header h => exact .header h
  | body h1 h2 => exact .body h1 (bodyErr_profile hc h2)
  | later h1 h2 h3 _ ih => exact .later h1 (body_profile hc h2) h3 ih

theorem objectsPanic_profile (hc : c'.overflow_checks = true → c.overflow_checks = true) {toks x}
    (h : ObjectsPanic c lo toks x) (hx : x = .indexSubOverflow → c.overflow_checks = c'.overflow_checks) :
    ObjectsPanic c' lo toks x := by
  induction h with
  | body h1 h2 => exact .body h1 (bodyPanic_profile (hx rfl) h2)
  | bare h1 h2 h3 => exact .bare h1 (body_profile hc h2) h3
  | later h1 h2 h3 _ ih => exact .later h1 (body_profile hc h2) h3 (ih hx)

end Verif.Spec.Obj

namespace Verif.Obj

open Verif.Spec Verif.Spec.Obj

variable {F : Type} [FloatSem F] {c c' : Cfg} {input : Bytes}

/-- A build with fewer checks does the same, unless the build with more checks panics. -/
theorem parse_profile (hlen : input.length < 2 ^ 63)
    (hc : c'.overflow_checks = true → c.overflow_checks = true) :
    (Obj.parse c input : Out ErrorKind (ObjectSet F)) = Obj.parse c' input ∨
      ((Obj.parse c input : Out ErrorKind (ObjectSet F)) = .panic .indexSubOverflow ∧
        c.overflow_checks ≠ c'.overflow_checks) := by
  rcases file_total c (tokens input) with ⟨file, rest, h1, h2⟩ | ⟨k, m, rest, libs, mid, h1, h2⟩ |
    ⟨x, libs, mid, h1, h2⟩
  · left
    rw [parse_ok_of hlen ⟨rest, h1, h2⟩, parse_ok_of hlen ⟨rest, h1, objects_profile hc h2⟩]
  · left
    rw [parse_err_of hlen ⟨libs, mid, h1, h2⟩, parse_err_of hlen ⟨libs, mid, h1, objectsErr_profile hc h2⟩]
  · by_cases hx : x = .indexSubOverflow → c.overflow_checks = c'.overflow_checks
    · left
      rw [parse_panic_of hlen ⟨libs, mid, h1, h2⟩, parse_panic_of hlen ⟨libs, mid, h1, objectsPanic_profile hc h2 hx⟩]
    · right
      simp only [Classical.not_imp] at hx
      rw [parse_panic_of hlen ⟨libs, mid, h1, h2⟩, hx.1]
      exact ⟨rfl, hx.2⟩

end Verif.Obj
