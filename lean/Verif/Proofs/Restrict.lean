import Verif.Proofs.ObjUnique
import Verif.Proofs.MtlLines

/-!
# What has not been read does not matter

If a token has not been read when an error is found, the tokens after it do not matter.
-/

namespace Verif.Spec.Obj

open Verif Verif.Obj

variable {cfg : Cfg} {lo hi : Counts}

/-- Statements do not look beyond the next token. -/
theorem stmt_restrict {it toks r Y} (h : Stmt cfg lo hi it toks (r ++ Y)) (hr : r ≠ []) :
    ∃ X, toks = X ++ Y ∧ Stmt cfg lo hi it X r := by
  obtain ⟨body, last, rfl, -, hs⟩ := stmt_shape h
  refine ⟨body ++ last :: r, by simp, hs r ⟨.inl ?_, fun h => ?_⟩⟩
  · cases r <;> simp_all
  · simp_all

theorem stop_restrict {mid r Y} (h : Stop cfg lo hi mid (r ++ Y)) (hr : r ≠ []) :
    ∃ X, mid = X ++ Y ∧ Stop cfg lo hi X r := by
  rcases h with ⟨t, k, m, rfl, ht⟩ | ⟨rfl, h⟩
  · exact ⟨t :: r, rfl, .inl ⟨t, k, m, rfl, ht⟩⟩
  · simp_all

theorem stmtErr_restrict {toks k m r Y} (h : StmtErr cfg lo hi toks k m (r ++ Y)) (hr : r ≠ []) :
    ∃ X, toks = X ++ Y ∧ StmtErr cfg lo hi X k m r := by
  have hnil : r ++ Y ≠ [] := by simp [hr]
  generalize hrest : r ++ Y = rest at h
  rw [hrest] at hnil
  cases h with
  | v_eof => exact absurd rfl hnil
  | vt_eof => exact absurd rfl hnil
  | vn_eof => exact absurd rfl hnil
  | s_eof => exact absurd rfl hnil
  | usemtl_eof => exact absurd rfl hnil
  | p_eof => exact absurd rfl hnil
  | l_eof => exact absurd rfl hnil
  | v_bad h1 h2 h3 => subst hrest; exact ⟨_, by simp, .v_bad h1 h2 h3⟩
  | vt_bad h => subst hrest; exact ⟨_, rfl, .vt_bad h⟩
  | vn_bad h1 h2 h3 => subst hrest; exact ⟨_, by simp, .vn_bad h1 h2 h3⟩
  | s_bad h => subst hrest; exact ⟨_, rfl, .s_bad h⟩
  | p_bad h1 h2 h3 => subst hrest; exact ⟨_, by simp, .p_bad h1 h2 h3⟩
  | l_bad h1 h2 h3 => subst hrest; exact ⟨_, by simp, .l_bad h1 h2 h3⟩
  | l_mixed h1 h2 h3 h4 =>
    subst hrest
    obtain ⟨X, rfl, h⟩ := stop_restrict h4 hr
    exact ⟨_, by simp, .l_mixed h1 h2 h3 h⟩
  | f_few h1 h2 h4 =>
    subst hrest
    obtain ⟨X, rfl, h⟩ := stop_restrict h4 hr
    exact ⟨_, by simp, .f_few h1 h2 h⟩
  | f_mixed h1 h2 h3 h4 =>
    subst hrest
    obtain ⟨X, rfl, h⟩ := stop_restrict h4 hr
    exact ⟨_, by simp, .f_mixed h1 h2 h3 h⟩
  | @unknown t rest h =>
    cases r with
    | nil => exact absurd rfl hr
    | cons t' r =>
      simp only [List.cons_append, List.cons.injEq] at hrest
      obtain ⟨rfl, rfl⟩ := hrest
      exact ⟨t' :: r, rfl, .unknown h⟩

/-- `r ++ Y` is a suffix of `l` and `r` is not empty, so `l` ends with `Y` and has more. -/
theorem suffix_split {l r Y : List Tok} (h : r ++ Y <:+ l) (hr : r ≠ []) : ∃ m, l = m ++ Y ∧ m ≠ [] := by
  obtain ⟨p, rfl⟩ := h
  exact ⟨p ++ r, by simp, by simp [hr]⟩

theorem bodyErr_restrict {toks k m r Y} (h : BodyErr cfg lo hi toks k m (r ++ Y)) (hr : r ≠ []) :
    ∃ X, toks = X ++ Y ∧ BodyErr cfg lo hi X k m r := by
  generalize hrest : r ++ Y = rest at h
  induction h with
  | here h =>
    subst hrest
    obtain ⟨X, e, h⟩ := stmtErr_restrict h hr
    exact ⟨X, e, .here h⟩
  | blank _ ih =>
    obtain ⟨X, rfl, h⟩ := ih hrest
    exact ⟨nl :: X, rfl, .blank h⟩
  | later h hb ih =>
    obtain ⟨X, rfl, h'⟩ := ih hrest
    have hX : X ≠ [] := by
      rintro rfl
      cases h' with
      | here h => cases h
      | later h => obtain ⟨_, _, e, _⟩ := Stmt.head h; cases e
    obtain ⟨X', rfl, hs⟩ := stmt_restrict h hX
    exact ⟨X', rfl, .later hs h'⟩

theorem body_restrict {items toks r Y} (h : Body cfg lo hi items toks (r ++ Y)) (hr : r ≠ []) :
    ∃ X, toks = X ++ Y ∧ Body cfg lo hi items X r := by
  generalize hrest : r ++ Y = rest at h
  induction h with
  | @done hi rest h =>
    subst hrest
    refine ⟨r, rfl, .done (.inr ?_)⟩
    rcases h with h | h
    · simp_all
    · cases r <;> simp_all
  | blank _ ih =>
    obtain ⟨X, rfl, h⟩ := ih hrest
    exact ⟨nl :: X, rfl, .blank h⟩
  | stmt h hb ih =>
    obtain ⟨X, rfl, h'⟩ := ih hrest
    have hX : X ≠ [] := by
      rintro rfl
      have := (body_suffix h').length_le
      cases r <;> simp_all
    obtain ⟨X', rfl, hs⟩ := stmt_restrict h hX
    exact ⟨X', rfl, .stmt hs h'⟩

theorem header_restrict {toks name r Y} (h : Header toks name (r ++ Y)) (hr : r ≠ []) :
    ∃ X, toks = X ++ Y ∧ Header X name r := by
  generalize hrest : r ++ Y = rest at h
  cases h with
  | @implicit t rest h =>
    cases r with
    | nil => exact absurd rfl hr
    | cons t' r =>
      simp only [List.cons_append, List.cons.injEq] at hrest
      obtain ⟨rfl, rfl⟩ := hrest
      exact ⟨t' :: r, rfl, .implicit h⟩
  | named => subst hrest; exact ⟨_, rfl, .named⟩

theorem objectsErr_restrict {toks k m r Y} (h : ObjectsErr cfg lo toks k m (r ++ Y)) (hr : r ≠ []) :
    ∃ X, toks = X ++ Y ∧ ObjectsErr cfg lo X k m r ∧ X ≠ [] := by
  generalize hrest : r ++ Y = rest at h
  induction h with
  | header h =>
    cases h with
    | no_name => simp_all
    | no_line => simp_all
    | junk h => subst hrest; exact ⟨_, rfl, .header (.junk h), by simp⟩
  | body h1 h2 =>
    subst hrest
    obtain ⟨X, rfl, hb⟩ := bodyErr_restrict h2 hr
    have hX : X ≠ [] := by
      clear h1 h2
      rintro rfl
      cases hb with
      | here h => cases h
      | later h => obtain ⟨_, _, e, _⟩ := Stmt.head h; cases e
    obtain ⟨X', rfl, hh⟩ := header_restrict h1 hX
    exact ⟨X', rfl, .body hh hb, by clear h1; rintro rfl; cases hh⟩
  | later h1 h2 h3 _ ih =>
    obtain ⟨X, rfl, h', hX⟩ := ih hrest
    obtain ⟨X', rfl, hb⟩ := body_restrict h2 hX
    have hX' : X' ≠ [] := by
      rintro rfl
      have := (body_suffix hb).length_le
      cases X <;> simp_all
    obtain ⟨X'', rfl, hh⟩ := header_restrict h1 hX'
    exact ⟨X'', rfl, .later hh hb h3 h', by clear h1; rintro rfl; cases hh⟩

theorem libs_restrict {toks libs r Y} (h : Libs toks libs (r ++ Y)) (hr : r ≠ []) :
    ∃ X, toks = X ++ Y ∧ Libs X libs r := by
  generalize hrest : r ++ Y = rest at h
  induction h with
  | done h1 h2 =>
    subst hrest
    refine ⟨r, rfl, .done ?_ ?_⟩ <;> cases r <;> simp_all
  | blank _ ih =>
    obtain ⟨X, rfl, h⟩ := ih hrest
    exact ⟨nl :: X, rfl, .blank h⟩
  | line h1 h2 _ ih =>
    obtain ⟨X, rfl, h⟩ := ih hrest
    rcases h2 with rfl | ⟨rfl, h2⟩
    · exact ⟨_, by simp, .line h1 (.inl rfl) h⟩
    · have hX : X = [] := by simp_all
      subst hX
      have := (libs_suffix h).length_le
      cases r <;> simp_all

theorem fileErr_restrict {toks k m r Y} (h : FileErr cfg toks k m (r ++ Y)) (hr : r ≠ []) :
    ∃ X, toks = X ++ Y ∧ FileErr cfg X k m r := by
  obtain ⟨libs, mid, h1, h2⟩ := h
  obtain ⟨X, rfl, ho, hX⟩ := objectsErr_restrict h2 hr
  obtain ⟨X', rfl, hl⟩ := libs_restrict h1 hX
  exact ⟨X', rfl, libs, X, hl, ho⟩

/-! ## `EndOfFile` -/

theorem numErr_kind {lo hi : Nat} {t k m} (h : NumErr cfg lo hi t k m) : k ≠ .EndOfFile := by
  cases h <;> simp

theorem refErr_kind {t k m} (h : RefErr cfg lo hi t k m) : k ≠ .EndOfFile := by
  cases h with
  | v _ h => exact numErr_kind h
  | vt _ _ h => exact numErr_kind h
  | vn _ _ _ h => exact numErr_kind h
  | shape => simp

theorem stmtErr_eof {toks m rest} (h : StmtErr cfg lo hi toks .EndOfFile m rest) : rest = [] := by
  generalize hk : ErrorKind.EndOfFile = k at h
  cases h with
  | p_bad _ h => exact absurd hk.symm (numErr_kind h)
  | l_bad _ _ h => exact absurd hk.symm (refErr_kind h)
  | _ => first | rfl | cases hk

theorem bodyErr_eof {toks m rest} (h : BodyErr cfg lo hi toks .EndOfFile m rest) : rest = [] := by
  generalize hk : ErrorKind.EndOfFile = k at h
  induction h with
  | here h => subst hk; exact stmtErr_eof h
  | blank _ ih => exact ih hk
  | later _ _ ih => exact ih hk

/-- The error `EndOfFile` only occurs when everything has been read. -/
theorem fileErr_eof {toks m rest} (h : FileErr cfg toks .EndOfFile m rest) : rest = [] := by
  obtain ⟨libs, mid, -, h⟩ := h
  generalize ({} : Counts) = lo at h
  generalize hk : ErrorKind.EndOfFile = k at h
  induction h with
  | header h => cases h <;> first | rfl | cases hk
  | body _ h => subst hk; exact bodyErr_eof h
  | later _ _ _ _ ih => exact ih hk

end Verif.Spec.Obj

namespace Verif.Spec.Mtl

open Verif Verif.Mtl

theorem stmt_restrict {it toks r Y} (h : Stmt it toks (r ++ Y)) : ∃ X, toks = X ++ Y ∧ Stmt it X r := by
  obtain ⟨body, last, rfl, -, hs⟩ := stmt_shape h
  exact ⟨body ++ last :: r, by simp, hs r⟩

theorem stmtErr_restrict {toks k m r Y} (h : StmtErr toks k m (r ++ Y)) (hr : r ≠ []) :
    ∃ X, toks = X ++ Y ∧ StmtErr X k m r := by
  have hnil : r ++ Y ≠ [] := by simp [hr]
  generalize hrest : r ++ Y = rest at h
  rw [hrest] at hnil
  cases h with
  | color_eof => exact absurd rfl hnil
  | num_eof => exact absurd rfl hnil
  | illum_eof => exact absurd rfl hnil
  | map_eof => exact absurd rfl hnil
  | @color_bad s _ _ _ h1 h2 h3 => subst hrest; exact ⟨_, by simp, .color_bad (s := s) h1 h2 h3⟩
  | num_bad h => subst hrest; exact ⟨_, rfl, .num_bad h⟩
  | illum_bad h => subst hrest; exact ⟨_, rfl, .illum_bad h⟩
  | illum_unknown h h' => subst hrest; exact ⟨_, rfl, .illum_unknown h h'⟩
  | @unknown t rest h1 h2 h3 =>
    cases r with
    | nil => exact absurd rfl hr
    | cons t' r =>
      simp only [List.cons_append, List.cons.injEq] at hrest
      obtain ⟨rfl, rfl⟩ := hrest
      exact ⟨t' :: r, rfl, .unknown h1 h2 h3⟩

theorem bodyErr_restrict {toks k m r Y} (h : BodyErr toks k m (r ++ Y)) (hr : r ≠ []) :
    ∃ X, toks = X ++ Y ∧ BodyErr X k m r := by
  generalize hrest : r ++ Y = rest at h
  induction h with
  | here h =>
    subst hrest
    obtain ⟨X, e, h⟩ := stmtErr_restrict h hr
    exact ⟨X, e, .here h⟩
  | blank _ ih =>
    obtain ⟨X, rfl, h⟩ := ih hrest
    exact ⟨nl :: X, rfl, .blank h⟩
  | later h hb ih =>
    obtain ⟨X, rfl, h'⟩ := ih hrest
    obtain ⟨X', rfl, hs⟩ := stmt_restrict h
    exact ⟨X', rfl, .later hs h'⟩

theorem body_restrict {items toks r Y} (h : Body items toks (r ++ Y)) (hr : r ≠ []) :
    ∃ X, toks = X ++ Y ∧ Body items X r := by
  generalize hrest : r ++ Y = rest at h
  induction h with
  | @done rest h =>
    subst hrest
    refine ⟨r, rfl, .done (.inr ?_)⟩
    rcases h with h | h
    · simp_all
    · cases r <;> simp_all
  | blank _ ih =>
    obtain ⟨X, rfl, h⟩ := ih hrest
    exact ⟨nl :: X, rfl, .blank h⟩
  | stmt h hb ih =>
    obtain ⟨X, rfl, h'⟩ := ih hrest
    obtain ⟨X', rfl, hs⟩ := stmt_restrict h
    exact ⟨X', rfl, .stmt hs h'⟩

theorem matsErr_restrict {toks k m r Y} (h : MatsErr toks k m (r ++ Y)) (hr : r ≠ []) :
    ∃ X, toks = X ++ Y ∧ MatsErr X k m r ∧ X ≠ [] := by
  generalize hrest : r ++ Y = rest at h
  induction h with
  | no_name => simp_all
  | @body name toks _ _ _ h =>
    subst hrest
    obtain ⟨X, rfl, hb⟩ := bodyErr_restrict h hr
    exact ⟨b!"newmtl" :: name :: X, rfl, .body hb, by simp⟩
  | @later name _ _ _ _ _ _ h _ ih =>
    obtain ⟨X, rfl, h', hX⟩ := ih hrest
    obtain ⟨X', rfl, hb⟩ := body_restrict h hX
    exact ⟨b!"newmtl" :: name :: X', rfl, .later hb h', by simp⟩

theorem fileErr_restrict {toks k m r Y} (h : FileErr toks k m (r ++ Y)) (hr : r ≠ []) :
    ∃ X, toks = X ++ Y ∧ FileErr X k m r := by
  generalize hrest : r ++ Y = rest at h
  induction h with
  | blank _ ih =>
    obtain ⟨X, rfl, h⟩ := ih hrest
    exact ⟨nl :: X, rfl, .blank h⟩
  | @trailing t toks h1 h2 =>
    cases r with
    | nil => exact absurd rfl hr
    | cons t' r =>
      simp only [List.cons_append, List.cons.injEq] at hrest
      obtain ⟨rfl, rfl⟩ := hrest
      exact ⟨t' :: r, rfl, .trailing h1 h2⟩
  | mats h =>
    subst hrest
    obtain ⟨X, rfl, h, -⟩ := matsErr_restrict h hr
    exact ⟨X, rfl, .mats h⟩

end Verif.Spec.Mtl
