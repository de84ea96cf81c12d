import Verif.Proofs.ObjUnique
import Verif.Proofs.MtlLines

/-!
# Doubling a newline, and cutting a text at the line of an `o` or a `newmtl`
-/

namespace Verif.Spec

open Verif

/-- `b` is `a` with one of its newlines, not the last token, doubled. -/
def Dup (a b : List Tok) : Prop := ∃ A B, B ≠ [] ∧ a = A ++ nl :: B ∧ b = A ++ nl :: nl :: B

theorem dup_cons {t : Tok} {a b : List Tok} (h : Dup (t :: a) b) :
    (t = nl ∧ a ≠ [] ∧ b = nl :: nl :: a) ∨ ∃ b', b = t :: b' ∧ Dup a b' := by
  obtain ⟨A, B, hB, h1, rfl⟩ := h
  cases A with
  | nil =>
    simp only [List.nil_append, List.cons.injEq] at h1
    obtain ⟨rfl, rfl⟩ := h1
    exact .inl ⟨rfl, hB, rfl⟩
  | cons x A =>
    simp only [List.cons_append, List.cons.injEq] at h1
    obtain ⟨rfl, rfl⟩ := h1
    exact .inr ⟨_, rfl, A, B, hB, rfl, rfl⟩

theorem dup_ne {a b : List Tok} (h : Dup a b) : a ≠ [] ∧ b ≠ [] := by
  obtain ⟨A, B, -, rfl, rfl⟩ := h
  simp

theorem dup_head {a b : List Tok} (h : Dup a b) : b.head? = a.head? := by
  obtain ⟨A, B, -, rfl, rfl⟩ := h
  cases A <;> rfl

/-- A newline can only be the last token of a statement, so either it is that, or it comes later. -/
theorem dup_split {body mid b : List Tok} {last : Tok} (hb : nl ∉ body) (h : Dup (body ++ last :: mid) b) :
    (last = nl ∧ mid ≠ [] ∧ b = body ++ nl :: nl :: mid) ∨ ∃ mid', b = body ++ last :: mid' ∧ Dup mid mid' := by
  induction body generalizing b with
  | nil => exact dup_cons h
  | cons t body ih =>
    simp only [List.mem_cons, not_or] at hb
    rcases dup_cons h with ⟨rfl, -⟩ | ⟨b', rfl, h'⟩
    · exact absurd rfl hb.1
    · rcases ih hb.2 h' with ⟨rfl, h1, rfl⟩ | ⟨mid', rfl, h1⟩
      · exact .inl ⟨rfl, h1, rfl⟩
      · exact .inr ⟨mid', rfl, h1⟩

/-- `b` is `a` cut off after a newline that is followed by the token `o`. -/
def CutAt (o : Tok) (Y a b : List Tok) : Prop := ∃ A, a = A ++ nl :: o :: Y ∧ b = A ++ [nl]

theorem cut_cons {o t : Tok} {Y a b : List Tok} (h : CutAt o Y (t :: a) b) :
    (t = nl ∧ a = o :: Y ∧ b = [nl]) ∨ ∃ b', b = t :: b' ∧ CutAt o Y a b' := by
  obtain ⟨A, h1, rfl⟩ := h
  cases A with
  | nil =>
    simp only [List.nil_append, List.cons.injEq] at h1
    exact .inl ⟨h1.1, h1.2, rfl⟩
  | cons x A =>
    simp only [List.cons_append, List.cons.injEq] at h1
    obtain ⟨rfl, rfl⟩ := h1
    exact .inr ⟨_, rfl, A, rfl, rfl⟩

theorem cut_ne {o : Tok} {Y a b : List Tok} (h : CutAt o Y a b) : a ≠ [] ∧ b ≠ [] := by
  obtain ⟨A, rfl, rfl⟩ := h
  simp

theorem cut_head {o : Tok} {Y a b : List Tok} (h : CutAt o Y a b) : b.head? = a.head? := by
  obtain ⟨A, rfl, rfl⟩ := h
  cases A <;> rfl

theorem cut_split {o : Tok} {Y body mid b : List Tok} {last : Tok} (hb : nl ∉ body)
    (h : CutAt o Y (body ++ last :: mid) b) :
    (last = nl ∧ mid = o :: Y ∧ b = body ++ [nl]) ∨ ∃ mid', b = body ++ last :: mid' ∧ CutAt o Y mid mid' := by
  induction body generalizing b with
  | nil => exact cut_cons h
  | cons t body ih =>
    simp only [List.mem_cons, not_or] at hb
    rcases cut_cons h with ⟨rfl, -⟩ | ⟨b', rfl, h'⟩
    · exact absurd rfl hb.1
    · rcases ih hb.2 h' with ⟨rfl, h1, rfl⟩ | ⟨mid', rfl, h1⟩
      · exact .inl ⟨rfl, h1, rfl⟩
      · exact .inr ⟨mid', rfl, h1⟩

end Verif.Spec

namespace Verif.Spec.Obj

open Verif Verif.Obj

variable {cfg : Cfg} {lo hi : Counts}

theorem bodyEnd_head {a b : List Tok} (h : BodyEnd a) (ha : a ≠ []) (e : b.head? = a.head?) : BodyEnd b := by
  rcases h with h | h
  · exact absurd h ha
  · exact .inr (e.trans h)

theorem noFloat_nl (X : List Tok) : NoFloat (nl :: X) := by
  intro t ht
  simp only [List.head?_cons, Option.mem_def, Option.some.injEq] at ht
  subst ht
  exact isFloat_nl

/-! ## Doubling -/

theorem body_dup {items toks rest toks'} (h : Body cfg lo hi items toks rest) (hd : Dup toks toks') :
    Body cfg lo hi items toks' rest ∨ ∃ rest', Dup rest rest' ∧ Body cfg lo hi items toks' rest' := by
  induction h generalizing toks' with
  | done h => exact .inr ⟨toks', hd, .done (bodyEnd_head h (dup_ne hd).1 (dup_head hd))⟩
  | blank h ih =>
    rcases dup_cons hd with ⟨-, -, rfl⟩ | ⟨b', rfl, hd'⟩
    · exact .inl (.blank (.blank h))
    · rcases ih hd' with h' | ⟨rest', h1, h'⟩
      · exact .inl (.blank h')
      · exact .inr ⟨rest', h1, .blank h'⟩
  | stmt h hb ih =>
    obtain ⟨body, last, rfl, hn, hr⟩ := stmt_shape h
    rcases dup_split hn hd with ⟨rfl, hm, rfl⟩ | ⟨mid', rfl, hd'⟩
    · exact .inl (.stmt (hr _ ⟨.inr (noFloat_nl _), fun e => absurd e hm⟩) (.blank hb))
    · have hs := hr mid' ⟨.inl (dup_head hd'), fun e => absurd e (dup_ne hd').1⟩
      rcases ih hd' with h' | ⟨rest', h1, h'⟩
      · exact .inl (.stmt hs h')
      · exact .inr ⟨rest', h1, .stmt hs h'⟩

theorem header_dup {name toks mid toks'} (h : Header toks name mid) (hd : Dup toks toks') :
    Header toks' name (nl :: mid) ∨ ∃ mid', Dup mid mid' ∧ Header toks' name mid' := by
  cases h with
  | @implicit t rest h =>
    refine .inr ⟨toks', hd, ?_⟩
    have := dup_head hd
    cases toks' with
    | nil => cases this
    | cons t' rest' =>
      simp only [List.head?_cons, Option.some.injEq] at this
      subst this
      exact .implicit h
  | named =>
    rcases dup_cons hd with ⟨h, -⟩ | ⟨b₁, rfl, hd₁⟩
    · exact absurd h (by decide)
    · rcases dup_cons hd₁ with ⟨rfl, -, rfl⟩ | ⟨b₂, rfl, hd₂⟩
      · exact .inl .named
      · rcases dup_cons hd₂ with ⟨-, -, rfl⟩ | ⟨b₃, rfl, hd₃⟩
        · exact .inl .named
        · exact .inr ⟨b₃, hd₃, .named⟩

theorem objects_dup {objs toks toks'} (h : Objects cfg lo objs toks) (hd : Dup toks toks') :
    Objects cfg lo objs toks' := by
  induction h generalizing toks' with
  | done => exact absurd rfl (dup_ne hd).1
  | obj hh hb hn ho ih =>
    rcases header_dup hh hd with hh' | ⟨mid', hd', hh'⟩
    · exact .obj hh' (.blank hb) hn ho
    · rcases body_dup hb hd' with hb' | ⟨rest', hd'', hb'⟩
      · exact .obj hh' hb' hn ho
      · exact .obj hh' hb' hn (ih hd'')

theorem libs_dup {toks libs rest toks'} (h : Libs toks libs rest) (hd : Dup toks toks') :
    Libs toks' libs rest ∨ ∃ rest', Dup rest rest' ∧ Libs toks' libs rest' := by
  induction h generalizing toks' with
  | done h1 h2 =>
    exact .inr ⟨toks', hd, .done (by rwa [dup_head hd]) (by rwa [dup_head hd])⟩
  | blank h ih =>
    rcases dup_cons hd with ⟨-, -, rfl⟩ | ⟨b', rfl, hd'⟩
    · exact .inl (.blank (.blank h))
    · rcases ih hd' with h' | ⟨rest', h1, h'⟩
      · exact .inl (.blank h')
      · exact .inr ⟨rest', h1, .blank h'⟩
  | @line names mid toks libs rest hn he h ih =>
    rcases he with rfl | ⟨rfl, rfl⟩
    · have hn' : nl ∉ b!"mtllib" :: names := by simp [hn]
      rcases dup_split (body := b!"mtllib" :: names) hn' (by simpa using hd) with ⟨-, -, rfl⟩ | ⟨mid', rfl, hd'⟩
      · have := Libs.line hn (mid := nl :: nl :: toks) (.inl rfl) (.blank h)
        exact .inl (by simpa using this)
      · have key : ∀ {rest'}, Libs mid' libs rest' → Libs (b!"mtllib" :: names ++ nl :: mid') (names ++ libs) rest' :=
          fun h => by simpa using Libs.line hn (.inl rfl) h
        rcases ih hd' with h' | ⟨rest', h1, h'⟩
        · exact .inl (key h')
        · exact .inr ⟨rest', h1, key h'⟩
    · obtain ⟨A, B, -, e, -⟩ := hd
      have : nl ∈ b!"mtllib" :: (names ++ []) := by rw [e]; simp
      simp [hn] at this

theorem file_dup {toks file toks'} (h : FileOk cfg toks file) (hd : Dup toks toks') : FileOk cfg toks' file := by
  obtain ⟨rest, hl, ho⟩ := h
  rcases libs_dup hl hd with h' | ⟨rest', hd', h'⟩
  · exact ⟨rest, h', ho⟩
  · exact ⟨rest', h', objects_dup ho hd'⟩

/-! ## Cutting -/

theorem body_at_o {items Y rest} (h : Body cfg lo hi items (b!"o" :: Y) rest) : items = [] ∧ rest = b!"o" :: Y := by
  generalize he : b!"o" :: Y = toks at h
  cases h with
  | done => exact ⟨rfl, rfl⟩
  | blank => exact absurd (List.cons.inj he).1 (by decide)
  | stmt h =>
    obtain ⟨t, tl, rfl, -, ho, -⟩ := Stmt.head h
    exact absurd (List.cons.inj he).1.symm ho

theorem body_cut_o {items toks rest toks' Y} (h : Body cfg lo hi items toks rest) (hd : CutAt b!"o" Y toks toks') :
    (rest = b!"o" :: Y ∧ Body cfg lo hi items toks' []) ∨
      ∃ rest', CutAt b!"o" Y rest rest' ∧ Body cfg lo hi items toks' rest' := by
  induction h generalizing toks' with
  | done h => exact .inr ⟨toks', hd, .done (bodyEnd_head h (cut_ne hd).1 (cut_head hd))⟩
  | blank h ih =>
    rcases cut_cons hd with ⟨-, rfl, rfl⟩ | ⟨b', rfl, hd'⟩
    · obtain ⟨rfl, rfl⟩ := body_at_o h
      exact .inl ⟨rfl, .blank (.done (.inl rfl))⟩
    · rcases ih hd' with ⟨rfl, h'⟩ | ⟨rest', h1, h'⟩
      · exact .inl ⟨rfl, .blank h'⟩
      · exact .inr ⟨rest', h1, .blank h'⟩
  | stmt h hb ih =>
    obtain ⟨body, last, rfl, hn, hr⟩ := stmt_shape h
    rcases cut_split hn hd with ⟨rfl, rfl, rfl⟩ | ⟨mid', rfl, hd'⟩
    · obtain ⟨rfl, rfl⟩ := body_at_o hb
      exact .inl ⟨rfl, .stmt (hr [] ⟨.inr (by simp [NoFloat]), fun e => by cases e⟩) (.done (.inl rfl))⟩
    · have hs := hr mid' ⟨.inl (cut_head hd'), fun e => absurd e (cut_ne hd').1⟩
      rcases ih hd' with ⟨rfl, h'⟩ | ⟨rest', h1, h'⟩
      · exact .inl ⟨rfl, .stmt hs h'⟩
      · exact .inr ⟨rest', h1, .stmt hs h'⟩

/-- The name of an object is on the line of its `o`, or is the newline and followed by another. -/
theorem header_cut {name toks mid toks' Y} (h : Header toks name mid) (hd : CutAt b!"o" Y toks toks') :
    (mid = b!"o" :: Y ∧ toks' = [b!"o", name, nl]) ∨
      ∃ mid', CutAt b!"o" Y mid mid' ∧ Header toks' name mid' := by
  cases h with
  | @implicit t rest h =>
    refine .inr ⟨toks', hd, ?_⟩
    have := cut_head hd
    cases toks' with
    | nil => cases this
    | cons t' rest' =>
      simp only [List.head?_cons, Option.some.injEq] at this
      subst this
      exact .implicit h
  | named =>
    rcases cut_cons hd with ⟨h, -⟩ | ⟨b₁, rfl, hd₁⟩
    · exact absurd h (by decide)
    · rcases cut_cons hd₁ with ⟨rfl, h, -⟩ | ⟨b₂, rfl, hd₂⟩
      · exact absurd (List.cons.inj h).1 (by decide)
      · rcases cut_cons hd₂ with ⟨-, rfl, rfl⟩ | ⟨b₃, rfl, hd₃⟩
        · exact .inl ⟨rfl, rfl⟩
        · exact .inr ⟨b₃, hd₃, .named⟩

theorem bare_nil : Bare [] := by simp [Bare]

theorem objects_cut {objs toks toks' Y} (h : Objects cfg lo objs toks) (hd : CutAt b!"o" Y toks toks') :
    ∃ a b, objs = a ++ b ∧ b ≠ [] ∧ Objects cfg lo a toks' ∧
      Objects cfg (lo + countsOf (a.flatMap ObjAst.items)) b (b!"o" :: Y) := by
  induction h generalizing toks' with
  | done => exact absurd rfl (cut_ne hd).1
  | @obj lo name items objs toks mid rest hh hb hn ho ih =>
    have hsingle : ∀ {tail : List ObjAst}, Objects cfg (lo + countsOf items) tail (b!"o" :: Y) → tail ≠ [] := by
      rintro tail h rfl; cases h
    rcases header_cut hh hd with ⟨rfl, -⟩ | ⟨mid', hd', hh'⟩
    · obtain ⟨rfl, -⟩ := body_at_o hb
      exact absurd bare_nil hn
    · rcases body_cut_o hb hd' with ⟨rfl, hb'⟩ | ⟨rest', hd'', hb'⟩
      · exact ⟨[⟨name, items⟩], objs, rfl, hsingle ho, .obj hh' hb' hn .done, by simpa using ho⟩
      · obtain ⟨a, b, rfl, hne, h1, h2⟩ := ih hd''
        refine ⟨⟨name, items⟩ :: a, b, rfl, hne, .obj hh' hb' hn h1, ?_⟩
        simp only [List.flatMap_cons, countsOf_append]
        rw [← counts_add_assoc]
        exact h2

theorem libs_cut {toks libs rest toks' Y} (h : Libs toks libs rest) (hd : CutAt b!"o" Y toks toks') :
    (rest = b!"o" :: Y ∧ Libs toks' libs []) ∨ ∃ rest', CutAt b!"o" Y rest rest' ∧ Libs toks' libs rest' := by
  have hat : ∀ {libs rest}, Libs (b!"o" :: Y) libs rest → libs = [] ∧ rest = b!"o" :: Y := by
    intro libs rest h
    generalize he : b!"o" :: Y = toks at h
    cases h with
    | done => exact ⟨rfl, rfl⟩
    | blank => exact absurd (List.cons.inj he).1 (by decide)
    | line => exact absurd (List.cons.inj he).1 (by decide)
  have hnil : Libs [] [] [] := .done (by simp) (by simp)
  induction h generalizing toks' with
  | done h1 h2 =>
    exact .inr ⟨toks', hd, .done (by rwa [cut_head hd]) (by rwa [cut_head hd])⟩
  | blank h ih =>
    rcases cut_cons hd with ⟨-, rfl, rfl⟩ | ⟨b', rfl, hd'⟩
    · obtain ⟨rfl, rfl⟩ := hat h
      exact .inl ⟨rfl, .blank hnil⟩
    · rcases ih hd' with ⟨rfl, h'⟩ | ⟨rest', h1, h'⟩
      · exact .inl ⟨rfl, .blank h'⟩
      · exact .inr ⟨rest', h1, .blank h'⟩
  | @line names mid toks libs rest hn he h ih =>
    rcases he with rfl | ⟨rfl, rfl⟩
    · have hn' : nl ∉ b!"mtllib" :: names := by simp [hn]
      rcases cut_split (body := b!"mtllib" :: names) hn' (by simpa using hd) with ⟨-, rfl, rfl⟩ | ⟨mid', rfl, hd'⟩
      · obtain ⟨rfl, rfl⟩ := hat h
        have := Libs.line hn (mid := [nl]) (.inl rfl) hnil
        exact .inl ⟨rfl, by simpa using this⟩
      · have key : ∀ {rest'}, Libs mid' libs rest' → Libs (b!"mtllib" :: names ++ nl :: mid') (names ++ libs) rest' :=
          fun h => by simpa using Libs.line hn (.inl rfl) h
        rcases ih hd' with ⟨rfl, h'⟩ | ⟨rest', h1, h'⟩
        · exact .inl ⟨rfl, key h'⟩
        · exact .inr ⟨rest', h1, key h'⟩
    · obtain ⟨A, e, -⟩ := hd
      have : nl ∈ b!"mtllib" :: (names ++ []) := by rw [e]; simp
      simp [hn] at this

theorem file_cut {toks file toks' Y} (h : FileOk cfg toks file) (hd : CutAt b!"o" Y toks toks') :
    ∃ a b, file.objects = a ++ b ∧ b ≠ [] ∧ FileOk cfg toks' ⟨file.libs, a⟩ := by
  obtain ⟨rest, hl, ho⟩ := h
  rcases libs_cut hl hd with ⟨rfl, h'⟩ | ⟨rest', hd', h'⟩
  · exact ⟨[], file.objects, rfl, fun h => (by rw [h] at ho; cases ho), [], h', .done⟩
  · obtain ⟨a, b, e, hne, h1, -⟩ := objects_cut ho hd'
    exact ⟨a, b, e, hne, rest', h', h1⟩

end Verif.Spec.Obj

namespace Verif.Spec.Mtl

open Verif Verif.Mtl

theorem bodyEnd_head {a b : List Tok} (h : BodyEnd a) (ha : a ≠ []) (e : b.head? = a.head?) : BodyEnd b := by
  rcases h with h | h
  · exact absurd h ha
  · exact .inr (e.trans h)

theorem body_dup {items toks rest toks'} (h : Body items toks rest) (hd : Dup toks toks') :
    Body items toks' rest ∨ ∃ rest', Dup rest rest' ∧ Body items toks' rest' := by
  induction h generalizing toks' with
  | done h => exact .inr ⟨toks', hd, .done (bodyEnd_head h (dup_ne hd).1 (dup_head hd))⟩
  | blank h ih =>
    rcases dup_cons hd with ⟨-, -, rfl⟩ | ⟨b', rfl, hd'⟩
    · exact .inl (.blank (.blank h))
    · rcases ih hd' with h' | ⟨rest', h1, h'⟩
      · exact .inl (.blank h')
      · exact .inr ⟨rest', h1, .blank h'⟩
  | stmt h hb ih =>
    obtain ⟨body, last, rfl, hn, hr⟩ := stmt_shape h
    rcases dup_split hn hd with ⟨rfl, hm, rfl⟩ | ⟨mid', rfl, hd'⟩
    · exact .inl (.stmt (hr _) (.blank hb))
    · rcases ih hd' with h' | ⟨rest', h1, h'⟩
      · exact .inl (.stmt (hr _) h')
      · exact .inr ⟨rest', h1, .stmt (hr _) h'⟩

theorem mats_dup {mats toks toks'} (h : Mats mats toks) (hd : Dup toks toks') : Mats mats toks' := by
  induction h generalizing toks' with
  | done => exact absurd rfl (dup_ne hd).1
  | mat hb hm ih =>
    rcases dup_cons hd with ⟨h, -⟩ | ⟨b₁, rfl, hd₁⟩
    · exact absurd h (by decide)
    · rcases dup_cons hd₁ with ⟨rfl, -, rfl⟩ | ⟨b₂, rfl, hd₂⟩
      · exact .mat (.blank hb) hm
      · rcases body_dup hb hd₂ with hb' | ⟨rest', hd', hb'⟩
        · exact .mat hb' hm
        · exact .mat hb' (ih hd')

theorem file_dup {toks mats toks'} (h : FileOk toks mats) (hd : Dup toks toks') : FileOk toks' mats := by
  induction h generalizing toks' with
  | blank h ih =>
    rcases dup_cons hd with ⟨-, -, rfl⟩ | ⟨b', rfl, hd'⟩
    · exact .blank (.blank h)
    · exact .blank (ih hd')
  | mats h => exact .mats (mats_dup h hd)

/-- Conversely one of two newlines may be dropped: only a name can be a newline, and it stays one. -/
theorem body_undup {items toks rest toks'} (h : Body items toks rest) (hd : Dup toks' toks) :
    Body items toks' rest ∨ ∃ rest', Dup rest' rest ∧ Body items toks' rest' := by
  induction h generalizing toks' with
  | done h => exact .inr ⟨toks', hd, .done (bodyEnd_head h (dup_ne hd).2 (dup_head hd).symm)⟩
  | blank h ih =>
    obtain ⟨A, B, hB, rfl, e⟩ := hd
    cases A with
    | nil =>
      simp only [List.nil_append, List.cons.injEq, true_and] at e
      subst e
      exact .inl h
    | cons t A =>
      simp only [List.cons_append, List.cons.injEq] at e
      obtain ⟨rfl, rfl⟩ := e
      rcases ih ⟨A, B, hB, rfl, rfl⟩ with h' | ⟨rest', h1, h'⟩
      · exact .inl (.blank h')
      · exact .inr ⟨rest', h1, .blank h'⟩
  | @stmt it items toks mid rest h hb ih =>
    obtain ⟨body, last, rfl, hn, hr⟩ := stmt_shape h
    obtain ⟨A, B, hB, rfl, e⟩ := hd
    rcases Obj.append_eq_cons_cases hn e with ⟨rfl, rfl, rfl⟩ | ⟨pre', rfl⟩
    · -- the first newline ends the statement, the second is a blank line
      generalize hm : nl :: B = mid at hb
      cases hb with
      | done h =>
        rcases h with h | h
        · subst h; cases hm
        · subst hm; simp [nl] at h
      | blank hb' =>
        cases hm
        exact .inl (.stmt (hr _) hb')
      | stmt h =>
        obtain ⟨t, tl, rfl, hne, -⟩ := stmt_head h
        exact absurd (List.cons.inj hm).1.symm hne
    · have e' : A = body ++ last :: pre' := by
        have := e.symm
        rw [← List.cons_append, ← List.append_assoc] at this
        exact List.append_cancel_right this
      subst e'
      rcases ih ⟨pre', B, hB, rfl, rfl⟩ with h' | ⟨rest', h1, h'⟩
      · exact .inl (by simpa using Body.stmt (hr (pre' ++ nl :: B)) h')
      · exact .inr ⟨rest', h1, by simpa using Body.stmt (hr (pre' ++ nl :: B)) h'⟩

theorem mats_undup {mats toks toks'} (h : Mats mats toks) (hd : Dup toks' toks) : Mats mats toks' := by
  induction h generalizing toks' with
  | done => exact absurd rfl (dup_ne hd).2
  | @mat name items mats toks rest hb hm ih =>
    obtain ⟨A, B, hB, rfl, e⟩ := hd
    match A with
    | [] => exact absurd (List.cons.inj e).1 (by decide)
    | [t] =>
      simp only [List.cons_append, List.nil_append, List.cons.injEq] at e
      obtain ⟨rfl, rfl, rfl⟩ := e
      generalize hx : nl :: B = mid at hb
      cases hb with
      | done h =>
        rcases h with h | h
        · subst h; cases hx
        · subst hx; simp [nl] at h
      | blank hb' =>
        cases hx
        exact .mat hb' hm
      | stmt h =>
        obtain ⟨t, tl, rfl, hne, -⟩ := stmt_head h
        exact absurd (List.cons.inj hx).1.symm hne
    | t :: t' :: A =>
      simp only [List.cons_append, List.cons.injEq] at e
      obtain ⟨rfl, rfl, rfl⟩ := e
      rcases body_undup hb ⟨A, B, hB, rfl, rfl⟩ with h' | ⟨rest', hd', h'⟩
      · exact .mat h' hm
      · exact .mat h' (ih hd')

theorem file_undup {toks mats toks'} (h : FileOk toks mats) (hd : Dup toks' toks) : FileOk toks' mats := by
  induction h generalizing toks' with
  | blank h ih =>
    obtain ⟨A, B, hB, rfl, e⟩ := hd
    cases A with
    | nil =>
      simp only [List.nil_append, List.cons.injEq, true_and] at e
      subst e
      exact h
    | cons t A =>
      simp only [List.cons_append, List.cons.injEq] at e
      obtain ⟨rfl, rfl⟩ := e
      exact .blank (ih ⟨A, B, hB, rfl, rfl⟩)
  | mats h => exact .mats (mats_undup h hd)

/-! ## Cutting -/

theorem body_at_newmtl {items Y rest} (h : Body items (b!"newmtl" :: Y) rest) :
    items = [] ∧ rest = b!"newmtl" :: Y := by
  generalize he : b!"newmtl" :: Y = toks at h
  cases h with
  | done => exact ⟨rfl, rfl⟩
  | blank => exact absurd (List.cons.inj he).1 (by decide)
  | stmt h =>
    obtain ⟨t, tl, rfl, -, ho⟩ := stmt_head h
    exact absurd (List.cons.inj he).1.symm ho

theorem body_cut {items toks rest toks' Y} (h : Body items toks rest) (hd : CutAt b!"newmtl" Y toks toks') :
    (rest = b!"newmtl" :: Y ∧ Body items toks' []) ∨
      ∃ rest', CutAt b!"newmtl" Y rest rest' ∧ Body items toks' rest' := by
  induction h generalizing toks' with
  | done h => exact .inr ⟨toks', hd, .done (bodyEnd_head h (cut_ne hd).1 (cut_head hd))⟩
  | blank h ih =>
    rcases cut_cons hd with ⟨-, rfl, rfl⟩ | ⟨b', rfl, hd'⟩
    · obtain ⟨rfl, rfl⟩ := body_at_newmtl h
      exact .inl ⟨rfl, .blank (.done (.inl rfl))⟩
    · rcases ih hd' with ⟨rfl, h'⟩ | ⟨rest', h1, h'⟩
      · exact .inl ⟨rfl, .blank h'⟩
      · exact .inr ⟨rest', h1, .blank h'⟩
  | stmt h hb ih =>
    obtain ⟨body, last, rfl, hn, hr⟩ := stmt_shape h
    rcases cut_split hn hd with ⟨rfl, rfl, rfl⟩ | ⟨mid', rfl, hd'⟩
    · obtain ⟨rfl, rfl⟩ := body_at_newmtl hb
      exact .inl ⟨rfl, .stmt (hr _) (.done (.inl rfl))⟩
    · rcases ih hd' with ⟨rfl, h'⟩ | ⟨rest', h1, h'⟩
      · exact .inl ⟨rfl, .stmt (hr _) h'⟩
      · exact .inr ⟨rest', h1, .stmt (hr _) h'⟩

theorem mats_cut {mats toks toks' Y} (h : Mats mats toks) (hd : CutAt b!"newmtl" Y toks toks') :
    ∃ a b, mats = a ++ b ∧ Mats a toks' ∧ Mats b (b!"newmtl" :: Y) := by
  induction h generalizing toks' with
  | done => exact absurd rfl (cut_ne hd).1
  | @mat name items mats toks rest hb hm ih =>
    rcases cut_cons hd with ⟨h, -⟩ | ⟨b₁, rfl, hd₁⟩
    · exact absurd h (by decide)
    · rcases cut_cons hd₁ with ⟨rfl, rfl, rfl⟩ | ⟨b₂, rfl, hd₂⟩
      · obtain ⟨rfl, rfl⟩ := body_at_newmtl hb
        exact ⟨[⟨nl, []⟩], mats, rfl, .mat (.done (.inl rfl)) .done, hm⟩
      · rcases body_cut hb hd₂ with ⟨rfl, hb'⟩ | ⟨rest', hd', hb'⟩
        · exact ⟨[⟨name, items⟩], mats, rfl, .mat hb' .done, hm⟩
        · obtain ⟨a, b, rfl, h1, h2⟩ := ih hd'
          exact ⟨⟨name, items⟩ :: a, b, rfl, .mat hb' h1, h2⟩

theorem file_cut {toks mats toks' Y} (h : FileOk toks mats) (hd : CutAt b!"newmtl" Y toks toks') :
    ∃ a b, mats = a ++ b ∧ FileOk toks' a ∧ FileOk (b!"newmtl" :: Y) b := by
  induction h generalizing toks' with
  | blank h ih =>
    rcases cut_cons hd with ⟨-, rfl, rfl⟩ | ⟨b', rfl, hd'⟩
    · exact ⟨[], _, rfl, .blank (.mats .done), h⟩
    · obtain ⟨a, b, rfl, h1, h2⟩ := ih hd'
      exact ⟨a, b, rfl, .blank h1, h2⟩
  | mats h =>
    obtain ⟨a, b, rfl, h1, h2⟩ := mats_cut h hd
    exact ⟨a, b, rfl, .mats h1, .mats h2⟩

end Verif.Spec.Mtl
