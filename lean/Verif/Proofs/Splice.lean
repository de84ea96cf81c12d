import Verif.Proofs.Twin
import Verif.Proofs.Swap

/-!
# Two files that differ in a few consecutive statements of one object
-/

namespace Verif.Spec.Obj

open Verif Verif.Obj

variable {cfg : Cfg} {lo hi : Counts} {F : Type} [FloatSem F]

/-- Some statements and blank lines at the start of the tokens. -/
inductive Run (cfg : Cfg) (lo : Counts) : Counts → List Item → List Tok → List Tok → Prop
  | nil {hi toks} : Run cfg lo hi [] toks toks
  | blank {hi its toks rest} : Run cfg lo hi its toks rest → Run cfg lo hi its (nl :: toks) rest
  | stmt {hi it its toks mid rest} : Stmt cfg lo hi it toks mid → Run cfg lo (hi + it.counts) its mid rest →
      Run cfg lo hi (it :: its) toks rest

/-- What is counted after some statements. -/
def after (hi : Counts) (its : List Item) : Counts := its.foldl (fun c it => c + it.counts) hi

theorem Run.body {its toks Y items rest} (h : Run cfg lo hi its toks Y)
    (hb : Body cfg lo (after hi its) items Y rest) : Body cfg lo hi (its ++ items) toks rest := by
  induction h with
  | nil => exact hb
  | blank _ ih => exact .blank (ih hb)
  | stmt hs _ ih => exact .stmt hs (ih hb)

theorem Run.err {its toks Y k m rest} (h : Run cfg lo hi its toks Y)
    (hb : BodyErr cfg lo (after hi its) Y k m rest) : BodyErr cfg lo hi toks k m rest := by
  induction h with
  | nil => exact hb
  | blank _ ih => exact .blank (ih hb)
  | stmt hs _ ih => exact .later hs (ih hb)

theorem Run.panic {its toks Y rest} (h : Run cfg lo hi its toks Y)
    (hb : BodyPanic cfg lo (after hi its) Y rest) : BodyPanic cfg lo hi toks rest := by
  induction h with
  | nil => exact hb
  | blank _ ih => exact .blank (ih hb)
  | stmt hs _ ih => exact .later hs (ih hb)

theorem SameEffect.prepend {a b : List Item} (h : SameEffect F a b) (pre : List Item) :
    SameEffect F (pre ++ a) (pre ++ b) := by
  induction pre with
  | nil => exact h
  | cons it pre ih => exact ih.cons it

theorem SameEffect.append {a b : List Item} (h : SameEffect F a b) (post : List Item) :
    SameEffect F (a ++ post) (b ++ post) where
  fold lo acc := by rw [List.foldl_append, List.foldl_append, h.fold]
  counts c := by rw [List.foldl_append, List.foldl_append, h.counts]
  bare := by
    have := h.bare
    simp only [Bare, List.mem_append, or_imp, forall_and] at this ⊢
    tauto

theorem SameEffect.object {a b : List Item} (h : SameEffect F a b) (lo : Counts) (name : Bytes) :
    (objMeaning lo ⟨name, a⟩ : Object F) = objMeaning lo ⟨name, b⟩ := by
  simp only [objMeaning, h.fold]

theorem SameEffect.countsOf {a b : List Item} (h : SameEffect F a b) : countsOf a = countsOf b := h.counts _

/-- Two lists of tokens with the same outcome. -/
def Alike (F : Type) [FloatSem F] (cfg : Cfg) (lo : Counts) (a b : List Tok) : Prop :=
  (∃ objs objs', Objects cfg lo objs a ∧ Objects cfg lo objs' b ∧
    (objectsMeaning lo objs : List (Object F)) = objectsMeaning lo objs') ∨
  (∃ k m rest, ObjectsErr cfg lo a k m rest ∧ ObjectsErr cfg lo b k m rest) ∨
  ∃ x, ObjectsPanic cfg lo a x ∧ ObjectsPanic cfg lo b x

theorem atObjects_alike {toks lo' here its Y} (h : AtObjects cfg lo toks lo' hi here)
    (hs : Run cfg lo' hi its here Y) :
    ∃ pre, toks = pre ++ here ∧ ∀ here' its', here'.head? = here.head? → Run cfg lo' hi its' here' Y →
      SameEffect F its its' → Alike F cfg lo toks (pre ++ here') := by
  induction h with
  | @this lo toks name mid hi here hh hb =>
    obtain ⟨p1, rfl, hp1⟩ := header_prefix hh
    obtain ⟨p2, its0, rfl, hp2⟩ := atBody_prefix hb
    refine ⟨p1 ++ p2, by simp, fun here' its' e hs' he => ?_⟩
    have hh' := hp1 (p2 ++ here') (by cases p2 <;> simp [e])
    rw [List.append_assoc]
    have hc : after hi its = after hi its' := he.counts hi
    rcases body_total cfg lo (after hi its) Y with ⟨items, rest, h⟩ | ⟨k, m, rest, h⟩ | ⟨rest, h⟩
    · have hb1 := (hp2 here rfl).1 _ _ (hs.body h)
      have hb2 := (hp2 here' e).1 _ _ (hs'.body (hc ▸ h))
      have he' := (he.append items).prepend its0
      by_cases hbare : Bare (its0 ++ (its ++ items))
      · exact .inr (.inr ⟨_, .bare hh hb1 hbare, .bare hh' hb2 (he'.bare.1 hbare)⟩)
      · have hbare' := mt he'.bare.2 hbare
        rcases objects_total cfg (lo + countsOf (its0 ++ (its ++ items))) rest with ⟨objs, h⟩ | ⟨k, m, rest, h⟩ | ⟨x, h⟩
        · refine .inl ⟨_, _, .obj hh hb1 hbare h, .obj hh' hb2 hbare' (he'.countsOf ▸ h), ?_⟩
          simp only [objectsMeaning, he'.countsOf, he'.object]
        · exact .inr (.inl ⟨_, _, _, .later hh hb1 hbare h, .later hh' hb2 hbare' (he'.countsOf ▸ h)⟩)
        · exact .inr (.inr ⟨_, .later hh hb1 hbare h, .later hh' hb2 hbare' (he'.countsOf ▸ h)⟩)
    · exact .inr (.inl ⟨_, _, _, .body hh (atBody_err hb (hs.err h)),
        .body hh' (atBody_err (hp2 here' e).2 (hs'.err (hc ▸ h)))⟩)
    · exact .inr (.inr ⟨_, .body hh (atBody_panic hb (hs.panic h)),
        .body hh' (atBody_panic (hp2 here' e).2 (hs'.panic (hc ▸ h)))⟩)
  | @later lo name items toks mid rest lo' hi here hh hb hbare _ ih =>
    obtain ⟨p1, rfl, hp1⟩ := header_prefix hh
    obtain ⟨p2, rfl, hp2⟩ := body_prefix hb
    obtain ⟨p3, rfl, ih⟩ := ih hs
    refine ⟨p1 ++ (p2 ++ p3), by simp, fun here' its' e hs' he => ?_⟩
    have e3 : (p3 ++ here').head? = (p3 ++ here).head? := by cases p3 <;> simp [e]
    have hb' := hp2 _ e3
    have hh' := hp1 (p2 ++ (p3 ++ here')) (by cases p2 <;> simp [e3])
    rw [List.append_assoc, List.append_assoc]
    rcases ih here' its' e hs' he with ⟨objs, objs', h, h', hm⟩ | ⟨k, m, rest, h, h'⟩ | ⟨x, h, h'⟩
    · refine .inl ⟨_, _, .obj hh hb hbare h, .obj hh' hb' hbare h', ?_⟩
      simp only [objectsMeaning, hm]
    · exact .inr (.inl ⟨_, _, _, .later hh hb hbare h, .later hh' hb' hbare h'⟩)
    · exact .inr (.inr ⟨_, .later hh hb hbare h, .later hh' hb' hbare h'⟩)

/-- Two files that differ only in statements with the same effect. -/
theorem atStmt_alike {toks here its Y} (h : AtStmt cfg toks lo hi here) (hs : Run cfg lo hi its here Y) :
    ∃ pre, toks = pre ++ here ∧ ∀ here' its', here'.head? = here.head? → Run cfg lo hi its' here' Y →
      SameEffect F its its' →
      (∃ file file', FileOk cfg toks file ∧ FileOk cfg (pre ++ here') file' ∧
        (meaning file : ObjectSet F) = meaning file') ∨
      (∃ k m rest, FileErr cfg toks k m rest ∧ FileErr cfg (pre ++ here') k m rest) ∨
      ∃ x, FilePanic cfg toks x ∧ FilePanic cfg (pre ++ here') x := by
  obtain ⟨libs, rest, hl, ho⟩ := h
  obtain ⟨p1, rfl, hp1⟩ := libs_prefix hl (atObjects_ne ho)
  obtain ⟨p2, rfl, hp2⟩ := atObjects_alike (F := F) ho hs
  refine ⟨p1 ++ p2, by simp, fun here' its' e hs' he => ?_⟩
  have hl' := hp1 (p2 ++ here') (by cases p2 <;> simp [e])
  rw [List.append_assoc]
  rcases hp2 here' its' e hs' he with ⟨objs, objs', h, h', hm⟩ | ⟨k, m, rest, h, h'⟩ | ⟨x, h, h'⟩
  · exact .inl ⟨⟨libs, objs⟩, ⟨libs, objs'⟩, ⟨_, hl, h⟩, ⟨_, hl', h'⟩, by simp only [meaning, hm]⟩
  · exact .inr (.inl ⟨k, m, rest, ⟨_, _, hl, h⟩, ⟨_, _, hl', h'⟩⟩)
  · exact .inr (.inr ⟨x, ⟨_, _, hl, h⟩, ⟨_, _, hl', h'⟩⟩)

end Verif.Spec.Obj
