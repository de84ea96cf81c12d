import Verif.Proofs.ObjTop
import Verif.Proofs.ObjLines

/-!
# Two files that differ in the text of one statement
-/

namespace Verif.Spec.Obj

open Verif Verif.Obj

variable {cfg : Cfg} {lo hi : Counts}

/-- The prefix of a list of tokens before a statement stays in order if the tokens from there on
are replaced. -/
theorem replaces_append {pre here here' : List Tok} (e : here'.head? = here.head?) :
    Replaces (pre ++ here) (pre ++ here') := by
  cases pre with
  | nil =>
    refine ⟨.inl e, fun h => ?_⟩
    simp only [List.nil_append] at h ⊢
    subst h
    exact List.head?_eq_none_iff.1 e
  | cons t pre => exact ⟨.inl rfl, fun h => by cases h⟩

theorem atBody_prefix {toks hi' here} (h : AtBody cfg lo hi toks hi' here) :
    ∃ pre its, toks = pre ++ here ∧ ∀ X : List Tok, X.head? = here.head? →
      (∀ items rest, Body cfg lo hi' items X rest → Body cfg lo hi (its ++ items) (pre ++ X) rest) ∧
      AtBody cfg lo hi (pre ++ X) hi' X := by
  induction h with
  | here => exact ⟨[], [], rfl, fun X _ => ⟨fun _ _ h => h, .here⟩⟩
  | blank _ ih =>
    obtain ⟨pre, its, rfl, ih⟩ := ih
    exact ⟨nl :: pre, its, rfl, fun X hX => ⟨fun _ _ h => .blank ((ih X hX).1 _ _ h), .blank (ih X hX).2⟩⟩
  | @stmt _ it _ mid _ _ hs _ ih =>
    obtain ⟨pre, its, rfl, ih⟩ := ih
    obtain ⟨body, last, rfl, -, hrep⟩ := stmt_shape hs
    refine ⟨body ++ last :: pre, it :: its, by simp, fun X hX => ?_⟩
    have := hrep _ (replaces_append (pre := pre) hX)
    rw [List.append_assoc, List.cons_append]
    exact ⟨fun _ _ h => .stmt this ((ih X hX).1 _ _ h), .stmt this (ih X hX).2⟩

theorem body_prefix {items toks rest} (h : Body cfg lo hi items toks rest) :
    ∃ pre, toks = pre ++ rest ∧ ∀ X : List Tok, X.head? = rest.head? → Body cfg lo hi items (pre ++ X) X := by
  induction h with
  | done h =>
    refine ⟨[], rfl, fun X hX => .done ?_⟩
    rcases h with rfl | h
    · exact .inl (List.head?_eq_none_iff.1 hX)
    · exact .inr (hX.trans h)
  | blank _ ih =>
    obtain ⟨pre, rfl, ih⟩ := ih
    exact ⟨nl :: pre, rfl, fun X hX => .blank (ih X hX)⟩
  | stmt hs _ ih =>
    obtain ⟨pre, rfl, ih⟩ := ih
    obtain ⟨body, last, rfl, -, hrep⟩ := stmt_shape hs
    refine ⟨body ++ last :: pre, by simp, fun X hX => ?_⟩
    rw [List.append_assoc, List.cons_append]
    exact .stmt (hrep _ (replaces_append hX)) (ih X hX)

theorem header_prefix {toks name mid} (h : Header toks name mid) :
    ∃ pre, toks = pre ++ mid ∧ ∀ X : List Tok, X.head? = mid.head? → Header (pre ++ X) name X := by
  cases h with
  | @implicit t rest ht =>
    refine ⟨[], rfl, fun X hX => ?_⟩
    cases X with
    | nil => cases hX
    | cons x X =>
      obtain rfl := Option.some.inj hX
      exact .implicit ht
  | @named name rest => exact ⟨[b!"o", name, nl], rfl, fun X _ => .named⟩

theorem libs_prefix {toks libs rest} (h : Libs toks libs rest) (hr : rest ≠ []) :
    ∃ pre, toks = pre ++ rest ∧ ∀ X : List Tok, X.head? = rest.head? → Libs (pre ++ X) libs X := by
  induction h with
  | done h1 h2 => exact ⟨[], rfl, fun X hX => .done (by rwa [List.nil_append, hX]) (by rwa [List.nil_append, hX])⟩
  | blank _ ih =>
    obtain ⟨pre, e, ih'⟩ := ih hr
    subst e
    exact ⟨nl :: pre, rfl, fun X hX => .blank (ih' X hX)⟩
  | @line names mid toks _ _ h1 h2 _ ih =>
    obtain ⟨pre, e, ih'⟩ := ih hr
    subst e
    rcases h2 with rfl | ⟨rfl, h⟩
    · refine ⟨b!"mtllib" :: (names ++ nl :: pre), by simp, fun X hX => ?_⟩
      have := Libs.line (names := names) h1 (.inl rfl) (ih' X hX)
      simpa using this
    · exact absurd (List.append_eq_nil_iff.1 h).2 hr

/-- Two lists of tokens with the same outcome. -/
def Same (cfg : Cfg) (lo : Counts) (a b : List Tok) : Prop :=
  (∃ objs, Objects cfg lo objs a ∧ Objects cfg lo objs b) ∨
  (∃ k m rest, ObjectsErr cfg lo a k m rest ∧ ObjectsErr cfg lo b k m rest) ∨
  ∃ x, ObjectsPanic cfg lo a x ∧ ObjectsPanic cfg lo b x

theorem stmt_ne {it toks rest} (h : Stmt cfg lo hi it toks rest) : toks ≠ [] := by
  rintro rfl
  cases h

theorem atObjects_same {toks lo' here it Y} (h : AtObjects cfg lo toks lo' hi here)
    (hs : Stmt cfg lo' hi it here (nl :: Y)) :
    ∃ pre, toks = pre ++ here ∧ ∀ here', here'.head? = here.head? → Stmt cfg lo' hi it here' Y →
      Same cfg lo toks (pre ++ here') := by
  induction h with
  | @this lo toks name mid hi here hh hb =>
    obtain ⟨p1, rfl, hp1⟩ := header_prefix hh
    obtain ⟨p2, its, rfl, hp2⟩ := atBody_prefix hb
    refine ⟨p1 ++ p2, by simp, fun here' e hs' => ?_⟩
    have hh' := hp1 (p2 ++ here') (by cases p2 <;> simp [e])
    rw [List.append_assoc]
    rcases body_total cfg lo (hi + it.counts) Y with ⟨items, rest, h⟩ | ⟨k, m, rest, h⟩ | ⟨rest, h⟩
    · have hb1 := (hp2 here rfl).1 _ _ (.stmt hs (.blank h))
      have hb2 := (hp2 here' e).1 _ _ (.stmt hs' h)
      by_cases hbare : Bare (its ++ it :: items)
      · exact .inr (.inr ⟨_, .bare hh hb1 hbare, .bare hh' hb2 hbare⟩)
      · rcases objects_total cfg (lo + countsOf (its ++ it :: items)) rest with ⟨objs, h⟩ | ⟨k, m, rest, h⟩ | ⟨x, h⟩
        · exact .inl ⟨_, .obj hh hb1 hbare h, .obj hh' hb2 hbare h⟩
        · exact .inr (.inl ⟨_, _, _, .later hh hb1 hbare h, .later hh' hb2 hbare h⟩)
        · exact .inr (.inr ⟨_, .later hh hb1 hbare h, .later hh' hb2 hbare h⟩)
    · exact .inr (.inl ⟨_, _, _, .body hh (atBody_err hb (.later hs (.blank h))),
        .body hh' (atBody_err (hp2 here' e).2 (.later hs' h))⟩)
    · exact .inr (.inr ⟨_, .body hh (atBody_panic hb (.later hs (.blank h))),
        .body hh' (atBody_panic (hp2 here' e).2 (.later hs' h))⟩)
  | @later lo name items toks mid rest lo' hi here hh hb hbare _ ih =>
    obtain ⟨p1, rfl, hp1⟩ := header_prefix hh
    obtain ⟨p2, rfl, hp2⟩ := body_prefix hb
    obtain ⟨p3, rfl, ih⟩ := ih hs
    refine ⟨p1 ++ (p2 ++ p3), by simp, fun here' e hs' => ?_⟩
    have e3 : (p3 ++ here').head? = (p3 ++ here).head? := by cases p3 <;> simp [e]
    have hb' := hp2 _ e3
    have hh' := hp1 (p2 ++ (p3 ++ here')) (by cases p2 <;> simp [e3])
    rw [List.append_assoc, List.append_assoc]
    rcases ih here' e hs' with ⟨objs, h, h'⟩ | ⟨k, m, rest, h, h'⟩ | ⟨x, h, h'⟩
    · exact .inl ⟨_, .obj hh hb hbare h, .obj hh' hb' hbare h'⟩
    · exact .inr (.inl ⟨_, _, _, .later hh hb hbare h, .later hh' hb' hbare h'⟩)
    · exact .inr (.inr ⟨_, .later hh hb hbare h, .later hh' hb' hbare h'⟩)

theorem atObjects_ne {toks lo' here} (h : AtObjects cfg lo toks lo' hi here) : toks ≠ [] := by
  cases h with
  | this h => rintro rfl; cases h
  | later h => rintro rfl; cases h

/-- Two files that differ only in one statement. -/
theorem atStmt_same {toks here it Y} (h : AtStmt cfg toks lo hi here) (hs : Stmt cfg lo hi it here (nl :: Y)) :
    ∃ pre, toks = pre ++ here ∧ ∀ here', here'.head? = here.head? → Stmt cfg lo hi it here' Y →
      (∃ file, FileOk cfg toks file ∧ FileOk cfg (pre ++ here') file) ∨
      (∃ k m rest, FileErr cfg toks k m rest ∧ FileErr cfg (pre ++ here') k m rest) ∨
      ∃ x, FilePanic cfg toks x ∧ FilePanic cfg (pre ++ here') x := by
  obtain ⟨libs, rest, hl, ho⟩ := h
  obtain ⟨p1, rfl, hp1⟩ := libs_prefix hl (atObjects_ne ho)
  obtain ⟨p2, rfl, hp2⟩ := atObjects_same ho hs
  refine ⟨p1 ++ p2, by simp, fun here' e hs' => ?_⟩
  have hl' := hp1 (p2 ++ here') (by cases p2 <;> simp [e])
  rw [List.append_assoc]
  rcases hp2 here' e hs' with ⟨objs, h, h'⟩ | ⟨k, m, rest, h, h'⟩ | ⟨x, h, h'⟩
  · exact .inl ⟨⟨libs, objs⟩, ⟨_, hl, h⟩, ⟨_, hl', h'⟩⟩
  · exact .inr (.inl ⟨k, m, rest, ⟨_, _, hl, h⟩, ⟨_, _, hl', h'⟩⟩)
  · exact .inr (.inr ⟨x, ⟨_, _, hl, h⟩, ⟨_, _, hl', h'⟩⟩)

end Verif.Spec.Obj
