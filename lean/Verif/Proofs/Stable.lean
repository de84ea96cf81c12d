import Verif.Proofs.ObjUnique
import Verif.Proofs.MtlLines

/-!
# What is wrong with complete lines stays wrong

An error in a sequence of tokens that ends with a newline does not depend on what follows.
-/

namespace Verif.Spec

open Verif

theorem getLast_suffix {a b : List Tok} (h : a <:+ b) (ha : a ≠ []) (hb : b.getLast? = some nl) :
    a.getLast? = some nl := by
  obtain ⟨p, rfl⟩ := h
  rwa [List.getLast?_append_of_ne_nil _ ha] at hb

theorem getLast_mem {ts : List Tok} (h : ts.getLast? = some nl) : nl ∈ ts := List.mem_of_getLast? h

end Verif.Spec

namespace Verif.Spec.Obj

open Verif Verif.Obj

variable {cfg : Cfg} {lo hi : Counts}

theorem stop_extend {ts refs mid rest} {kw : Tok} (hk : kw ≠ nl) (h2 : List.Forall₂ (RefTok lo hi) ts refs)
    (h : Stop cfg lo hi mid rest) (hl : (kw :: (ts ++ mid)).getLast? = some nl) (Y : List Tok) :
    Stop cfg lo hi (mid ++ Y) (rest ++ Y) := by
  rcases h with ⟨t, k, m, rfl, ht⟩ | ⟨rfl, rfl⟩
  · exact .inl ⟨t, k, m, rfl, ht⟩
  · have := getLast_mem hl
    simp only [List.append_nil, List.mem_cons] at this
    rcases this with h | h
    · exact absurd h.symm hk
    · exact absurd rfl (forall₂_left h2 (fun _ _ => refTok_ne_nl) _ h)

theorem stmtErr_extend {toks k m rest} (h : StmtErr cfg lo hi toks k m rest)
    (hl : toks.getLast? = some nl) (Y : List Tok) : StmtErr cfg lo hi (toks ++ Y) k m (rest ++ Y) := by
  have hmem := getLast_mem hl
  have e : ∀ (a : Tok) (ts : List Tok) (t : Tok) (r : List Tok),
      a :: (ts ++ t :: r) ++ Y = a :: (ts ++ t :: (r ++ Y)) := by intros; simp
  have e' : ∀ (a : Tok) (ts r : List Tok), a :: (ts ++ r) ++ Y = a :: (ts ++ (r ++ Y)) := by intros; simp
  cases h with
  | v_eof h1 h2 =>
    simp only [List.mem_cons] at hmem
    rcases hmem with h | h
    · exact absurd h (by decide)
    · exact absurd rfl (float_ne_nl (h2 _ h))
  | v_bad h1 h2 h3 => rw [e]; exact .v_bad h1 h2 h3
  | vt_eof => exact absurd hmem (by decide)
  | vt_bad h => exact .vt_bad h
  | vn_eof h1 h2 =>
    simp only [List.mem_cons] at hmem
    rcases hmem with h | h
    · exact absurd h (by decide)
    · exact absurd rfl (float_ne_nl (h2 _ h))
  | vn_bad h1 h2 h3 => rw [e]; exact .vn_bad h1 h2 h3
  | s_eof => exact absurd hmem (by decide)
  | s_bad h => exact .s_bad h
  | usemtl_eof => exact absurd hmem (by decide)
  | p_eof => exact absurd hmem (by decide)
  | p_bad h1 h2 h3 => rw [e]; exact .p_bad h1 h2 h3
  | l_eof h1 h2 =>
    simp only [List.mem_cons] at hmem
    rcases hmem with h | h
    · exact absurd h (by decide)
    · exact absurd rfl (forall₂_left h2 (fun _ _ => refTok_ne_nl) _ h)
  | l_bad h1 h2 h3 => rw [e]; exact .l_bad h1 h2 h3
  | l_mixed h1 h2 h3 h4 => rw [e']; exact .l_mixed h1 h2 h3 (stop_extend (by decide) h2 h4 hl Y)
  | f_few h1 h2 h4 => rw [e']; exact .f_few h1 h2 (stop_extend (by decide) h2 h4 hl Y)
  | f_mixed h1 h2 h3 h4 => rw [e']; exact .f_mixed h1 h2 h3 (stop_extend (by decide) h2 h4 hl Y)
  | unknown h => exact .unknown h

theorem stmtErr_ne {toks k m rest} (h : StmtErr cfg lo hi toks k m rest) : toks ≠ [] := by
  rintro rfl; cases h

theorem bodyErr_ne {toks k m rest} (h : BodyErr cfg lo hi toks k m rest) : toks ≠ [] := by
  cases h with
  | here h => exact stmtErr_ne h
  | blank => simp
  | later h => obtain ⟨_, _, e, _⟩ := Stmt.head h; rw [e]; simp

theorem bodyErr_extend {toks k m rest} (h : BodyErr cfg lo hi toks k m rest)
    (hl : toks.getLast? = some nl) (Y : List Tok) : BodyErr cfg lo hi (toks ++ Y) k m (rest ++ Y) := by
  induction h with
  | here h => exact .here (stmtErr_extend h hl Y)
  | blank h ih => exact .blank (ih (getLast_suffix (List.suffix_cons _ _) (bodyErr_ne h) hl))
  | later h hb ih =>
    exact .later (stmt_append h (bodyErr_ne hb) Y) (ih (getLast_suffix (stmt_suffix h) (bodyErr_ne hb) hl))

theorem objectsErr_ne {toks k m rest} (h : ObjectsErr cfg lo toks k m rest) : toks ≠ [] := by
  rintro rfl
  cases h with
  | header h => cases h
  | body h => cases h
  | later h => cases h

/-- The one error that is not final: the name of an object has been taken to be the newline. -/
theorem objectsErr_extend {toks k m rest} (h : ObjectsErr cfg lo toks k m rest)
    (hl : toks.getLast? = some nl) :
    (∀ Y, ObjectsErr cfg lo (toks ++ Y) k m (rest ++ Y)) ∨ (k = .EndOfFile ∧ [b!"o", nl] <:+ toks) := by
  induction h with
  | header h =>
    cases h with
    | no_name => exact absurd (getLast_mem hl) (by decide)
    | @no_line name =>
      simp only [List.getLast?_cons_cons, List.getLast?_singleton, Option.some.injEq] at hl
      subst hl
      exact .inr ⟨rfl, List.suffix_refl _⟩
    | junk h => exact .inl fun Y => .header (.junk h)
  | body h1 h2 =>
    have := getLast_suffix (header_suffix h1) (bodyErr_ne h2) hl
    exact .inl fun Y => .body (header_append h1 Y) (bodyErr_extend h2 this Y)
  | later h1 h2 h3 h4 ih =>
    have hne := objectsErr_ne h4
    have hs := (body_suffix h2).trans (header_suffix h1)
    rcases ih (getLast_suffix hs hne hl) with h | ⟨h, h'⟩
    · exact .inl fun Y => .later (header_append h1 Y) (body_append h2 hne Y) h3 (h Y)
    · exact .inr ⟨h, h'.trans hs⟩

theorem fileErr_extend {toks k m rest} (h : FileErr cfg toks k m rest) (hl : toks.getLast? = some nl) :
    (∀ Y, FileErr cfg (toks ++ Y) k m (rest ++ Y)) ∨ (k = .EndOfFile ∧ [b!"o", nl] <:+ toks) := by
  obtain ⟨libs, mid, h1, h2⟩ := h
  have hne := objectsErr_ne h2
  rcases objectsErr_extend h2 (getLast_suffix (libs_suffix h1) hne hl) with h | ⟨h, h'⟩
  · exact .inl fun Y => ⟨libs, _, libs_append h1 hne Y, h Y⟩
  · exact .inr ⟨h, h'.trans (libs_suffix h1)⟩

/-! ## Panics -/

theorem stmtPanic_extend {toks rest} (h : StmtPanic cfg lo hi toks rest) (Y : List Tok) :
    StmtPanic cfg lo hi (toks ++ Y) (rest ++ Y) := by
  have e : ∀ (a : Tok) (ts : List Tok) (t : Tok) (r : List Tok),
      a :: (ts ++ t :: r) ++ Y = a :: (ts ++ t :: (r ++ Y)) := by intros; simp
  cases h with
  | p h1 h2 => rw [e]; exact .p h1 h2
  | l h1 h2 => rw [e]; exact .l h1 h2
  | f h1 h2 => rw [e]; exact .f h1 h2

theorem bodyPanic_ne {toks rest} (h : BodyPanic cfg lo hi toks rest) : toks ≠ [] := by
  rintro rfl
  cases h with
  | here h => cases h
  | later h => obtain ⟨_, _, e, _⟩ := Stmt.head h; cases e

theorem bodyPanic_extend {toks rest} (h : BodyPanic cfg lo hi toks rest) (Y : List Tok) :
    BodyPanic cfg lo hi (toks ++ Y) (rest ++ Y) := by
  induction h with
  | here h => exact .here (stmtPanic_extend h Y)
  | blank h ih => exact .blank ih
  | later h hb ih => exact .later (stmt_append h (bodyPanic_ne hb) Y) ih

theorem objectsPanic_ne {toks x} (h : ObjectsPanic cfg lo toks x) : toks ≠ [] := by
  rintro rfl
  cases h with
  | body h => cases h
  | bare h => cases h
  | later h => cases h

theorem objectsPanic_extend {toks} (h : ObjectsPanic cfg lo toks .indexSubOverflow) (Y : List Tok) :
    ObjectsPanic cfg lo (toks ++ Y) .indexSubOverflow := by
  generalize hx : PanicSite.indexSubOverflow = x at h
  induction h with
  | body h1 h2 => exact .body (header_append h1 Y) (bodyPanic_extend h2 Y)
  | bare => cases hx
  | later h1 h2 h3 h4 ih =>
    subst hx
    exact .later (header_append h1 Y) (body_append h2 (objectsPanic_ne h4) Y) h3 (ih rfl)

theorem filePanic_extend {toks} (h : FilePanic cfg toks .indexSubOverflow) (Y : List Tok) :
    FilePanic cfg (toks ++ Y) .indexSubOverflow := by
  obtain ⟨libs, mid, h1, h2⟩ := h
  exact ⟨libs, _, libs_append h1 (objectsPanic_ne h2) Y, objectsPanic_extend h2 Y⟩

end Verif.Spec.Obj

namespace Verif.Spec.Mtl

open Verif Verif.Mtl

theorem stmtErr_extend {toks k m rest} (h : StmtErr toks k m rest)
    (hl : toks.getLast? = some nl) (Y : List Tok) : StmtErr (toks ++ Y) k m (rest ++ Y) := by
  have hmem := getLast_mem hl
  cases h with
  | @color_eof s xs h1 h2 =>
    simp only [List.mem_cons, (colorTag_ne_nl s).symm, false_or] at hmem
    exact absurd rfl (float_ne_nl (h2 _ hmem))
  | @color_bad s xs t rest h1 h2 h3 =>
    have := StmtErr.color_bad (s := s) (rest := rest ++ Y) h1 h2 h3
    simpa using this
  | @num_eof s =>
    simp only [List.mem_singleton] at hmem
    exact absurd hmem.symm (numTag_ne_nl s)
  | num_bad h => exact .num_bad h
  | illum_eof => exact absurd hmem (by decide)
  | illum_bad h => exact .illum_bad h
  | illum_unknown h h' => exact .illum_unknown h h'
  | map_eof h =>
    simp only [List.mem_singleton] at hmem
    exact absurd hmem.symm (tags_ne_nl h)
  | unknown h1 h2 h3 => exact .unknown h1 h2 h3

theorem bodyErr_ne {toks k m rest} (h : BodyErr toks k m rest) : toks ≠ [] := by
  cases h with
  | here h => rintro rfl; cases h
  | blank => simp
  | later h => obtain ⟨_, _, e, _⟩ := stmt_head h; rw [e]; simp

theorem stmt_extend {it toks rest} (h : Stmt it toks rest) (Y : List Tok) : Stmt it (toks ++ Y) (rest ++ Y) := by
  obtain ⟨body, last, rfl, -, hr⟩ := stmt_shape h
  simpa using hr (rest ++ Y)

theorem bodyErr_extend {toks k m rest} (h : BodyErr toks k m rest)
    (hl : toks.getLast? = some nl) (Y : List Tok) : BodyErr (toks ++ Y) k m (rest ++ Y) := by
  induction h with
  | here h => exact .here (stmtErr_extend h hl Y)
  | blank h ih => exact .blank (ih (getLast_suffix (List.suffix_cons _ _) (bodyErr_ne h) hl))
  | later h hb ih =>
    exact .later (stmt_extend h Y) (ih (getLast_suffix (stmt_suffix h) (bodyErr_ne hb) hl))

theorem matsErr_ne {toks k m rest} (h : MatsErr toks k m rest) : toks ≠ [] := by
  rintro rfl; cases h

theorem matsErr_extend {toks k m rest} (h : MatsErr toks k m rest)
    (hl : toks.getLast? = some nl) (Y : List Tok) : MatsErr (toks ++ Y) k m (rest ++ Y) := by
  have key : ∀ (name : Tok) (toks : List Tok), toks <:+ b!"newmtl" :: name :: toks :=
    fun name toks => ⟨[b!"newmtl", name], rfl⟩
  induction h with
  | no_name => exact absurd (getLast_mem hl) (by decide)
  | body h => exact .body (bodyErr_extend h (getLast_suffix (key _ _) (bodyErr_ne h) hl) Y)
  | later h hm ih =>
    have hne := matsErr_ne hm
    exact .later (body_append h Y (.inl hne)) (ih (getLast_suffix ((body_suffix h).trans (key _ _)) hne hl))

theorem fileErr_ne {toks k m rest} (h : FileErr toks k m rest) : toks ≠ [] := by
  rintro rfl
  cases h with
  | mats h => cases h

theorem fileErr_extend {toks k m rest} (h : FileErr toks k m rest)
    (hl : toks.getLast? = some nl) (Y : List Tok) : FileErr (toks ++ Y) k m (rest ++ Y) := by
  induction h with
  | blank h ih => exact .blank (ih (getLast_suffix (List.suffix_cons _ _) (fileErr_ne h) hl))
  | trailing h1 h2 => exact .trailing h1 h2
  | mats h => exact .mats (matsErr_extend h hl Y)

end Verif.Spec.Mtl
