import Verif.Proofs.ObjMeaning

/-!
# Where statements begin and end
-/

namespace Verif.Spec.Obj

open Verif Verif.Obj

theorem float_ne_nl {t : Tok} (h : isFloat t = true) : t ≠ nl := by
  rintro rfl
  revert h
  decide

theorem isFloat_nl : isFloat nl = false := by decide

theorem refErr_nl (cfg : Cfg) (lo hi : Counts) : RefErr cfg lo hi nl .ExpectedInteger (intText nl) := by
  have e : piece nl 0 = nl := by decide
  have h := RefErr.v (cfg := cfg) (lo := lo) (hi := hi) (t := nl) (by decide)
    (NumErr.notInt (cfg := cfg) (lo := lo.v) (hi := hi.v) (t := piece nl 0) (by decide))
  rwa [e] at h

theorem refTok_ne_nl {lo hi : Counts} {t : Tok} {r : Ref} (h : RefTok lo hi t r) : t ≠ nl := by
  rintro rfl
  have hv := h.v
  have e : piece nl 0 = nl := by decide
  rw [e] at hv
  rcases hv with ⟨h1, _⟩ | ⟨k, _, h2, _⟩
  · cases h1
  · exact numTok_ne_nl h2 rfl

theorem forall₂_left {α β : Type} {R : α → β → Prop} {q : α → Prop} {l : List α} {l' : List β}
    (h : List.Forall₂ R l l') (hq : ∀ a b, R a b → q a) : ∀ a ∈ l, q a := by
  induction h with
  | nil => simp
  | cons h _ ih =>
    intro b hb
    rcases List.mem_cons.mp hb with rfl | hb
    · exact hq _ _ h
    · exact ih b hb

theorem snoc_of {used : List Tok} (h1 : used ≠ []) (h2 : nl ∉ used) :
    ∃ body last, used = body ++ [last] ∧ nl ∉ body :=
  ⟨used.dropLast, used.getLast h1, (List.dropLast_concat_getLast h1).symm,
    fun h => h2 (List.dropLast_subset _ h)⟩

/-- The text after a statement may be replaced without changing the statement. -/
def Replaces (mid mid' : List Tok) : Prop :=
  (mid'.head? = mid.head? ∨ NoFloat mid') ∧ (mid = [] → mid' = [])

theorem noFloat_replaces {mid mid' : List Tok} (h : NoFloat mid) (hr : Replaces mid mid') : NoFloat mid' := by
  rcases hr.1 with e | h'
  · unfold NoFloat; rw [e]; exact h
  · exact h'

/-- The tokens of a statement: a newline can only be the last of them. -/
theorem stmt_shape {cfg : Cfg} {lo hi : Counts} {it toks mid} (h : Stmt cfg lo hi it toks mid) :
    ∃ body last, toks = body ++ last :: mid ∧ nl ∉ body ∧
      ∀ mid', Replaces mid mid' → Stmt cfg lo hi it (body ++ last :: mid') mid' := by
  cases h with
  | @v3 x y z _ h1 h2 h3 h4 =>
    refine ⟨[b!"v", x, y], z, rfl, ?_, fun mid' hr => .v3 h1 h2 h3 (noFloat_replaces h4 hr)⟩
    simp [(float_ne_nl h1).symm, (float_ne_nl h2).symm]
  | @v4 x y z w _ h1 h2 h3 h4 =>
    refine ⟨[b!"v", x, y, z], w, rfl, ?_, fun mid' hr => .v4 h1 h2 h3 h4⟩
    simp [(float_ne_nl h1).symm, (float_ne_nl h2).symm, (float_ne_nl h3).symm]
  | @vt1 u _ h1 h2 =>
    exact ⟨[b!"vt"], u, rfl, by simp, fun mid' hr => .vt1 h1 (noFloat_replaces h2 hr)⟩
  | @vt2 u v _ h1 h2 h3 =>
    refine ⟨[b!"vt", u], v, rfl, ?_, fun mid' hr => .vt2 h1 h2 (noFloat_replaces h3 hr)⟩
    simp [(float_ne_nl h1).symm]
  | @vt3 u v w _ h1 h2 h3 =>
    refine ⟨[b!"vt", u, v], w, rfl, ?_, fun mid' hr => .vt3 h1 h2 h3⟩
    simp [(float_ne_nl h1).symm, (float_ne_nl h2).symm]
  | @vn x y z _ h1 h2 h3 =>
    refine ⟨[b!"vn", x, y], z, rfl, ?_, fun mid' hr => .vn h1 h2 h3⟩
    simp [(float_ne_nl h1).symm, (float_ne_nl h2).symm]
  | @g names mid _ h1 h2 =>
    rcases h2 with rfl | ⟨rfl, rfl⟩
    · exact ⟨b!"g" :: names, nl, rfl, by simpa using h1, fun mid' hr => .g h1 (.inl rfl)⟩
    · obtain ⟨body, last, e, hb⟩ := snoc_of (used := b!"g" :: names) (by simp) (by simpa using h1)
      refine ⟨body, last, by rw [← e]; simp, hb, fun mid' hr => ?_⟩
      rw [hr.2 rfl, ← e]
      have := Stmt.g (cfg := cfg) (lo := lo) (hi := hi) h1 (.inr ⟨rfl, rfl⟩)
      rwa [List.append_nil] at this
  | @s t n _ h1 => exact ⟨[b!"s"], t, rfl, by simp, fun mid' hr => .s h1⟩
  | @usemtl name _ => exact ⟨[b!"usemtl"], name, rfl, by simp, fun mid' hr => .usemtl⟩
  | @p ts is mid _ h1 h2 h3 =>
    have hn : nl ∉ ts := fun hc => forall₂_left h2 (fun _ _ => numTok_ne_nl) _ hc rfl
    rcases h3 with rfl | ⟨rfl, rfl⟩
    · exact ⟨b!"p" :: ts, nl, rfl, by simpa using hn, fun mid' hr => .p h1 h2 (.inl rfl)⟩
    · obtain ⟨body, last, e, hb⟩ := snoc_of (used := b!"p" :: ts) (by simp) (by simpa using hn)
      refine ⟨body, last, by rw [← e]; simp, hb, fun mid' hr => ?_⟩
      rw [hr.2 rfl, ← e]
      have := Stmt.p (cfg := cfg) (lo := lo) (hi := hi) h1 h2 (.inr ⟨rfl, rfl⟩)
      rwa [List.append_nil] at this
  | @l ts refs mid _ h1 h2 h3 h4 =>
    have hn : nl ∉ ts := fun hc => forall₂_left h2 (fun _ _ => refTok_ne_nl) _ hc rfl
    rcases h4 with ⟨t, k, m, rfl, ht⟩ | ⟨rfl, rfl⟩
    · exact ⟨b!"l" :: ts, t, rfl, by simpa using hn,
        fun mid' hr => .l h1 h2 h3 (.inl ⟨t, k, m, rfl, ht⟩)⟩
    · obtain ⟨body, last, e, hb⟩ := snoc_of (used := b!"l" :: ts) (by simp) (by simpa using hn)
      refine ⟨body, last, by rw [← e]; simp, hb, fun mid' hr => ?_⟩
      rw [hr.2 rfl, ← e]
      have := Stmt.l (cfg := cfg) (lo := lo) (hi := hi) h1 h2 h3 (.inr ⟨rfl, rfl⟩)
      rwa [List.append_nil] at this
  | @f ts refs mid _ h1 h2 h3 h4 =>
    have hn : nl ∉ ts := fun hc => forall₂_left h2 (fun _ _ => refTok_ne_nl) _ hc rfl
    rcases h4 with ⟨t, k, m, rfl, ht⟩ | ⟨rfl, rfl⟩
    · exact ⟨b!"f" :: ts, t, rfl, by simpa using hn,
        fun mid' hr => .f h1 h2 h3 (.inl ⟨t, k, m, rfl, ht⟩)⟩
    · obtain ⟨body, last, e, hb⟩ := snoc_of (used := b!"f" :: ts) (by simp) (by simpa using hn)
      refine ⟨body, last, by rw [← e]; simp, hb, fun mid' hr => ?_⟩
      rw [hr.2 rfl, ← e]
      have := Stmt.f (cfg := cfg) (lo := lo) (hi := hi) h1 h2 h3 (.inr ⟨rfl, rfl⟩)
      rwa [List.append_nil] at this

/-! ## Suffixes -/

theorem stmt_suffix {cfg : Cfg} {lo hi : Counts} {it toks mid} (h : Stmt cfg lo hi it toks mid) :
    mid <:+ toks := by
  obtain ⟨body, last, rfl, -, -⟩ := stmt_shape h
  exact ⟨body ++ [last], by simp⟩

theorem stop_suffix {cfg : Cfg} {lo hi : Counts} {mid rest} (h : Stop cfg lo hi mid rest) :
    rest <:+ mid := by
  rcases h with ⟨t, _, _, rfl, _⟩ | ⟨rfl, rfl⟩
  · exact List.suffix_cons _ _
  · exact List.suffix_refl _

theorem stmtErr_suffix {cfg : Cfg} {lo hi : Counts} {toks k m rest} (h : StmtErr cfg lo hi toks k m rest) :
    rest <:+ toks := by
  have key : ∀ (ts : List Tok) (t a : Tok) (rest : List Tok), rest <:+ a :: (ts ++ t :: rest) :=
    fun ts t a rest => ⟨a :: (ts ++ [t]), by simp⟩
  have key2 : ∀ (ts : List Tok) (a : Tok) {mid rest : List Tok}, rest <:+ mid → rest <:+ a :: (ts ++ mid) :=
    fun ts a mid rest h => h.trans ⟨a :: ts, by simp⟩
  cases h with
  | v_eof => exact List.nil_suffix
  | v_bad => exact key _ _ _ _
  | vt_eof => exact List.nil_suffix
  | vt_bad => exact key [] _ _ _
  | vn_eof => exact List.nil_suffix
  | vn_bad => exact key _ _ _ _
  | s_eof => exact List.nil_suffix
  | s_bad => exact key [] _ _ _
  | usemtl_eof => exact List.nil_suffix
  | p_eof => exact List.nil_suffix
  | p_bad => exact key _ _ _ _
  | l_eof => exact List.nil_suffix
  | l_bad => exact key _ _ _ _
  | l_mixed _ _ _ h => exact key2 _ _ (stop_suffix h)
  | f_few _ _ h => exact key2 _ _ (stop_suffix h)
  | f_mixed _ _ _ h => exact key2 _ _ (stop_suffix h)
  | unknown => exact List.suffix_refl _

theorem body_suffix {cfg : Cfg} {lo hi : Counts} {items toks rest} (h : Body cfg lo hi items toks rest) :
    rest <:+ toks := by
  induction h with
  | done => exact List.suffix_refl _
  | blank _ ih => exact ih.trans (List.suffix_cons _ _)
  | stmt h _ ih => exact ih.trans (stmt_suffix h)

theorem bodyErr_suffix {cfg : Cfg} {lo hi : Counts} {toks k m rest} (h : BodyErr cfg lo hi toks k m rest) :
    rest <:+ toks := by
  induction h with
  | here h => exact stmtErr_suffix h
  | blank _ ih => exact ih.trans (List.suffix_cons _ _)
  | later h _ ih => exact ih.trans (stmt_suffix h)

theorem header_suffix {toks name mid} (h : Header toks name mid) : mid <:+ toks := by
  cases h with
  | implicit => exact List.suffix_refl _
  | @named name rest => exact ⟨[b!"o", name, nl], rfl⟩

theorem headerErr_suffix {toks k m rest} (h : HeaderErr toks k m rest) : rest <:+ toks := by
  cases h with
  | no_name => exact List.nil_suffix
  | no_line => exact List.nil_suffix
  | @junk name t rest _ => exact ⟨[b!"o", name, t], rfl⟩

theorem objectsErr_suffix {cfg : Cfg} {lo : Counts} {toks k m rest} (h : ObjectsErr cfg lo toks k m rest) :
    rest <:+ toks := by
  induction h with
  | header h => exact headerErr_suffix h
  | body h1 h2 => exact (bodyErr_suffix h2).trans (header_suffix h1)
  | later h1 h2 _ _ ih => exact ih.trans ((body_suffix h2).trans (header_suffix h1))

theorem endLine_suffix {mid rest : List Tok} (h : EndLine mid rest) : rest <:+ mid := by
  rcases h with rfl | ⟨rfl, rfl⟩
  · exact List.suffix_cons _ _
  · exact List.suffix_refl _

theorem libs_suffix {toks libs rest} (h : Libs toks libs rest) : rest <:+ toks := by
  induction h with
  | done => exact List.suffix_refl _
  | blank _ ih => exact ih.trans (List.suffix_cons _ _)
  | @line names mid _ _ _ _ h _ ih =>
    exact ih.trans ((endLine_suffix h).trans ⟨b!"mtllib" :: names, by simp⟩)

theorem fileErr_suffix {cfg : Cfg} {toks k m rest} (h : FileErr cfg toks k m rest) : rest <:+ toks := by
  obtain ⟨libs, mid, hl, ho⟩ := h
  exact (objectsErr_suffix ho).trans (libs_suffix hl)

/-! ## Statement positions -/

/-- `here` is where a statement of an object is expected. -/
inductive AtBody (cfg : Cfg) (lo : Counts) : Counts → List Tok → Counts → List Tok → Prop
  | here {hi toks} : AtBody cfg lo hi toks hi toks
  | blank {hi toks hi' here} : AtBody cfg lo hi toks hi' here → AtBody cfg lo hi (nl :: toks) hi' here
  | stmt {hi it toks mid hi' here} : Stmt cfg lo hi it toks mid →
      AtBody cfg lo (hi + it.counts) mid hi' here → AtBody cfg lo hi toks hi' here

inductive AtObjects (cfg : Cfg) : Counts → List Tok → Counts → Counts → List Tok → Prop
  | this {lo toks name mid hi here} : Header toks name mid → AtBody cfg lo lo mid hi here →
      AtObjects cfg lo toks lo hi here
  | later {lo name items toks mid rest lo' hi here} : Header toks name mid →
      Body cfg lo lo items mid rest → ¬ Bare items →
      AtObjects cfg (lo + countsOf items) rest lo' hi here → AtObjects cfg lo toks lo' hi here

/-- The statements of the file are in order up to `here`, where a statement of an object is
expected; earlier objects have defined `lo`, and `hi` is what has been defined so far. -/
def AtStmt (cfg : Cfg) (toks : List Tok) (lo hi : Counts) (here : List Tok) : Prop :=
  ∃ libs rest, Libs toks libs rest ∧ AtObjects cfg {} rest lo hi here

theorem atBody_err {cfg : Cfg} {lo hi : Counts} {toks hi' here} (h : AtBody cfg lo hi toks hi' here)
    {k m rest} (he : BodyErr cfg lo hi' here k m rest) : BodyErr cfg lo hi toks k m rest := by
  induction h with
  | here => exact he
  | blank _ ih => exact .blank (ih he)
  | stmt h _ ih => exact .later h (ih he)

theorem atObjects_err {cfg : Cfg} {lo : Counts} {toks lo' hi here}
    (h : AtObjects cfg lo toks lo' hi here) {k m rest} (he : StmtErr cfg lo' hi here k m rest) :
    ObjectsErr cfg lo toks k m rest := by
  induction h with
  | this h1 h2 => exact .body h1 (atBody_err h2 (.here he))
  | later h1 h2 h3 _ ih => exact .later h1 h2 h3 (ih he)

/-- A rejected statement in statement position makes the file rejected. -/
theorem atStmt_err {cfg : Cfg} {toks lo hi here} (h : AtStmt cfg toks lo hi here) {k m rest}
    (he : StmtErr cfg lo hi here k m rest) : FileErr cfg toks k m rest := by
  obtain ⟨libs, mid, h1, h2⟩ := h
  exact ⟨libs, mid, h1, atObjects_err h2 he⟩

theorem atBody_panic {cfg : Cfg} {lo hi : Counts} {toks hi' here} (h : AtBody cfg lo hi toks hi' here)
    {rest} (he : BodyPanic cfg lo hi' here rest) : BodyPanic cfg lo hi toks rest := by
  induction h with
  | here => exact he
  | blank _ ih => exact .blank (ih he)
  | stmt h _ ih => exact .later h (ih he)

theorem atObjects_panic {cfg : Cfg} {lo : Counts} {toks lo' hi here}
    (h : AtObjects cfg lo toks lo' hi here) {rest} (he : StmtPanic cfg lo' hi here rest) :
    ObjectsPanic cfg lo toks .indexSubOverflow := by
  induction h with
  | this h1 h2 => exact .body h1 (atBody_panic h2 (.here he))
  | later h1 h2 h3 _ ih => exact .later h1 h2 h3 (ih he)

theorem atStmt_panic {cfg : Cfg} {toks lo hi here} (h : AtStmt cfg toks lo hi here) {rest}
    (he : StmtPanic cfg lo hi here rest) : FilePanic cfg toks .indexSubOverflow := by
  obtain ⟨libs, mid, h1, h2⟩ := h
  exact ⟨libs, mid, h1, atObjects_panic h2 he⟩

/-! ## Line starts are statement positions -/

theorem append_eq_cons_cases {pre X body mid : List Tok} {last : Tok} (hb : nl ∉ body)
    (h : body ++ last :: mid = pre ++ nl :: X) :
    (mid = X ∧ last = nl ∧ body = pre) ∨ ∃ pre', mid = pre' ++ nl :: X := by
  induction body generalizing pre with
  | nil =>
    cases pre with
    | nil =>
      simp only [List.nil_append, List.cons.injEq] at h
      exact .inl ⟨h.2, h.1, rfl⟩
    | cons p pre =>
      simp only [List.nil_append, List.cons_append, List.cons.injEq] at h
      exact .inr ⟨pre, h.2⟩
  | cons b body ih =>
    simp only [List.mem_cons, not_or] at hb
    cases pre with
    | nil =>
      simp only [List.cons_append, List.nil_append, List.cons.injEq] at h
      exact absurd h.1.symm hb.1
    | cons p pre =>
      simp only [List.cons_append, List.cons.injEq] at h
      rcases ih hb.2 h.2 with ⟨h1, h2, h3⟩ | h'
      · exact .inl ⟨h1, h2, by rw [h.1, h3]⟩
      · exact .inr h'

/-- A line cannot start with `t` inside an object if `t` is no keyword. -/
theorem body_line {cfg : Cfg} {lo hi : Counts} {items toks rest} (h : Body cfg lo hi items toks rest)
    {t : Tok} (ht : t ∉ keywords) {pre X : List Tok} (e : toks = pre ++ nl :: t :: X) :
    ∃ pre', rest = pre' ++ nl :: t :: X := by
  have hhead : ∀ {hi items rest}, ¬ Body cfg lo hi items (t :: X) rest := by
    intro hi items rest hb
    simp only [keywords, List.mem_cons, List.not_mem_nil, or_false, not_or] at ht
    cases hb with
    | done h =>
      rcases h with h | h
      · cases h
      · simp only [List.head?_cons, Option.some.injEq] at h
        exact ht.2.2.2.2.2.2.2.2.2.2 h
    | blank => exact ht.2.2.2.2.2.2.2.2.2.1 rfl
    | stmt h =>
      obtain ⟨t', tl, e, _, _, hk⟩ := Stmt.head h
      simp only [List.cons.injEq] at e
      obtain ⟨rfl, rfl⟩ := e
      revert hk
      simp only [keywords, List.mem_cons, List.not_mem_nil, or_false, imp_false]
      simpa only [not_or] using ht
  induction h generalizing pre with
  | done => exact ⟨pre, e⟩
  | blank h ih =>
    cases pre with
    | nil =>
      simp only [List.nil_append, List.cons.injEq, true_and] at e
      subst e
      exact absurd h hhead
    | cons p pre =>
      simp only [List.cons_append, List.cons.injEq] at e
      exact ih e.2
  | stmt h hb ih =>
    obtain ⟨body, last, e', hn, -⟩ := stmt_shape h
    rw [e'] at e
    rcases append_eq_cons_cases hn e with ⟨rfl, -, -⟩ | ⟨pre', h'⟩
    · exact absurd hb hhead
    · exact ih h'

theorem objects_line {cfg : Cfg} {lo : Counts} {objs toks} (h : Objects cfg lo objs toks)
    {t : Tok} (ht : t ∉ keywords) {pre X : List Tok} : toks ≠ pre ++ nl :: t :: X := by
  intro e
  have htnl : t ≠ nl := by rintro rfl; exact ht (by decide)
  induction h generalizing pre with
  | done => simp at e
  | @obj lo name items objs toks mid rest hh hb hn _ ih =>
    have hmid : ∃ pre', mid = pre' ++ nl :: t :: X ∨ mid = t :: X := by
      cases hh with
      | implicit => exact ⟨pre, .inl e⟩
      | named =>
        match pre, e with
        | [], e => simp at e
        | [_], e =>
          simp only [List.cons_append, List.nil_append, List.cons.injEq] at e
          exact absurd e.2.2.1.symm htnl
        | [_, _], e =>
          simp only [List.cons_append, List.nil_append, List.cons.injEq] at e
          exact ⟨[], .inr e.2.2.2⟩
        | _ :: _ :: _ :: pre, e =>
          simp only [List.cons_append, List.cons.injEq] at e
          exact ⟨pre, .inl e.2.2.2⟩
    obtain ⟨pre', hm | hm⟩ := hmid
    · obtain ⟨pre'', h'⟩ := body_line hb ht hm
      exact ih h'
    · have := body_line (.blank hb) ht (pre := []) (X := X) (by rw [hm]; rfl)
      obtain ⟨pre'', h'⟩ := this
      exact ih h'

/-! ## Appending -/

theorem stmt_append {cfg : Cfg} {lo hi : Counts} {it toks mid} (h : Stmt cfg lo hi it toks mid)
    (hm : mid ≠ []) (Y : List Tok) : Stmt cfg lo hi it (toks ++ Y) (mid ++ Y) := by
  obtain ⟨body, last, rfl, -, hr⟩ := stmt_shape h
  have := hr (mid ++ Y) ⟨.inl (by cases mid <;> simp_all), fun h => absurd h hm⟩
  simpa using this

/-- A newline after the last statement. -/
theorem stmt_append_nl {cfg : Cfg} {lo hi : Counts} {it toks} (h : Stmt cfg lo hi it toks [])
    (X : List Tok) : Stmt cfg lo hi it (toks ++ nl :: X) (nl :: X) ∨ Stmt cfg lo hi it (toks ++ nl :: X) X := by
  have nf : NoFloat (nl :: X) := by
    intro t ht
    simp only [List.head?_cons, Option.mem_def, Option.some.injEq] at ht
    subst ht
    exact isFloat_nl
  have hend : ∀ {mid : List Tok}, EndLine mid [] → mid = [nl] ∨ mid = [] := by
    rintro mid (h | ⟨h, -⟩)
    · exact .inl h
    · exact .inr h
  cases h with
  | v3 h1 h2 h3 h4 => exact .inl (.v3 h1 h2 h3 nf)
  | v4 h1 h2 h3 h4 => exact .inl (.v4 h1 h2 h3 h4)
  | vt1 h1 h2 => exact .inl (.vt1 h1 nf)
  | vt2 h1 h2 h3 => exact .inl (.vt2 h1 h2 nf)
  | vt3 h1 h2 h3 => exact .inl (.vt3 h1 h2 h3)
  | vn h1 h2 h3 => exact .inl (.vn h1 h2 h3)
  | s h1 => exact .inl (.s h1)
  | usemtl => exact .inl .usemtl
  | @g names mid _ h1 h2 =>
    rcases hend h2 with rfl | rfl
    · left
      have := Stmt.g (cfg := cfg) (lo := lo) (hi := hi) h1 (mid := nl :: nl :: X) (.inl rfl)
      simpa using this
    · right
      have := Stmt.g (cfg := cfg) (lo := lo) (hi := hi) h1 (mid := nl :: X) (.inl rfl)
      simpa using this
  | @p ts is mid _ h1 h2 h3 =>
    rcases hend h3 with rfl | rfl
    · left
      have := Stmt.p (cfg := cfg) (lo := lo) (hi := hi) h1 h2 (mid := nl :: nl :: X) (.inl rfl)
      simpa using this
    · right
      have := Stmt.p (cfg := cfg) (lo := lo) (hi := hi) h1 h2 (mid := nl :: X) (.inl rfl)
      simpa using this
  | @l ts refs mid _ h1 h2 h3 h4 =>
    rcases h4 with ⟨t, k, m, rfl, ht⟩ | ⟨rfl, -⟩
    · left
      have := Stmt.l (cfg := cfg) (lo := lo) (hi := hi) h1 h2 h3 (mid := t :: nl :: X) (.inl ⟨t, k, m, rfl, ht⟩)
      simpa using this
    · right
      have := Stmt.l (cfg := cfg) (lo := lo) (hi := hi) h1 h2 h3 (mid := nl :: X)
        (.inl ⟨nl, _, _, rfl, refErr_nl cfg lo hi⟩)
      simpa using this
  | @f ts refs mid _ h1 h2 h3 h4 =>
    rcases h4 with ⟨t, k, m, rfl, ht⟩ | ⟨rfl, -⟩
    · left
      have := Stmt.f (cfg := cfg) (lo := lo) (hi := hi) h1 h2 h3 (mid := t :: nl :: X) (.inl ⟨t, k, m, rfl, ht⟩)
      simpa using this
    · right
      have := Stmt.f (cfg := cfg) (lo := lo) (hi := hi) h1 h2 h3 (mid := nl :: X)
        (.inl ⟨nl, _, _, rfl, refErr_nl cfg lo hi⟩)
      simpa using this

theorem body_append {cfg : Cfg} {lo hi : Counts} {items toks rest} (h : Body cfg lo hi items toks rest)
    (hr : rest ≠ []) (Y : List Tok) : Body cfg lo hi items (toks ++ Y) (rest ++ Y) := by
  induction h with
  | @done hi rest h =>
    refine .done (.inr ?_)
    rcases h with h | h
    · exact absurd h hr
    · cases rest with
      | nil => cases h
      | cons => exact h
  | blank _ ih => exact .blank (ih hr)
  | stmt h hb ih =>
    refine .stmt (stmt_append h ?_ Y) (ih hr)
    rintro rfl
    have := body_suffix hb
    exact hr (List.suffix_nil.mp this)

theorem body_nil {cfg : Cfg} {lo hi : Counts} {items rest} (h : Body cfg lo hi items [] rest) :
    items = [] ∧ rest = [] := by
  cases h with
  | done => exact ⟨rfl, rfl⟩
  | stmt h =>
    obtain ⟨_, _, e, _⟩ := Stmt.head h
    cases e

theorem body_append_nl {cfg : Cfg} {lo hi : Counts} {items toks} (h : Body cfg lo hi items toks [])
    {X : List Tok} (hX : BodyEnd X) : Body cfg lo hi items (toks ++ nl :: X) X := by
  generalize hrest : ([] : List Tok) = rest at h
  induction h with
  | done => subst hrest; exact .blank (.done hX)
  | blank _ ih => exact .blank (ih hrest)
  | @stmt hi it items toks mid rest h hb ih =>
    by_cases hm : mid = []
    · subst hm
      rcases stmt_append_nl h X with h' | h'
      · exact .stmt h' (by simpa using ih hrest)
      · refine .stmt h' ?_
        obtain ⟨rfl, -⟩ := body_nil hb
        exact .done hX
    · have := stmt_append h hm (nl :: X)
      exact .stmt this (ih hrest)

theorem header_append {toks name mid} (h : Header toks name mid) (Y : List Tok) :
    Header (toks ++ Y) name (mid ++ Y) := by
  cases h with
  | implicit h => exact .implicit h
  | named => exact .named

/-- Appending a newline and further objects. -/
theorem objects_append {cfg : Cfg} {lo : Counts} {objs toks} (h : Objects cfg lo objs toks)
    (hne : toks ≠ []) {objs' : List ObjAst} {X : List Tok} (hX : BodyEnd X)
    (h' : Objects cfg (lo + countsOf (objs.flatMap ObjAst.items)) objs' X) :
    Objects cfg lo (objs ++ objs') (toks ++ nl :: X) := by
  induction h with
  | done => exact absurd rfl hne
  | @obj lo name items objs toks mid rest hh hb hn ho ih =>
    have e : lo + countsOf ((⟨name, items⟩ :: objs).flatMap ObjAst.items) =
        lo + countsOf items + countsOf (objs.flatMap ObjAst.items) := by
      rw [List.flatMap_cons, countsOf_append, counts_add_assoc]
    rw [e] at h'
    by_cases hr : rest = []
    · subst hr
      cases ho with
      | done =>
        refine .obj (header_append hh _) (body_append_nl hb hX) hn ?_
        have e0 : lo + countsOf items + countsOf (([] : List ObjAst).flatMap ObjAst.items) =
            lo + countsOf items := by
          simp [countsOf, counts_add]
        rw [e0] at h'
        exact h'
      | obj hh' => cases hh'
    · exact .obj (header_append hh _) (body_append hb hr _) hn (ih hr h')

theorem libs_append {toks libs rest} (h : Libs toks libs rest) (hr : rest ≠ []) (Y : List Tok) :
    Libs (toks ++ Y) libs (rest ++ Y) := by
  induction h with
  | @done toks h1 h2 =>
    cases toks with
    | nil => exact absurd rfl hr
    | cons t tl => exact .done h1 h2
  | blank _ ih => exact .blank (ih hr)
  | @line names mid toks libs rest h1 h2 h3 ih =>
    rcases h2 with rfl | ⟨rfl, rfl⟩
    · have := Libs.line h1 (mid := nl :: (toks ++ Y)) (.inl rfl) (ih hr)
      simpa using this
    · have := libs_suffix h3
      exact absurd (List.suffix_nil.mp this) hr

theorem libs_nil {libs rest} (h : Libs [] libs rest) : libs = [] ∧ rest = [] := by
  cases h with
  | done => exact ⟨rfl, rfl⟩

theorem libs_append_nl {toks libs} (h : Libs toks libs []) {X : List Tok} (h1 : X.head? ≠ some nl)
    (h2 : X.head? ≠ some b!"mtllib") : Libs (toks ++ nl :: X) libs X := by
  generalize hrest : ([] : List Tok) = rest at h
  induction h with
  | done => subst hrest; exact .blank (.done h1 h2)
  | blank _ ih => exact .blank (ih hrest)
  | @line names mid toks libs rest hn he h3 ih =>
    rcases he with rfl | ⟨rfl, rfl⟩
    · have := Libs.line hn (mid := nl :: (toks ++ nl :: X)) (.inl rfl) (ih hrest)
      simpa using this
    · obtain ⟨rfl, -⟩ := libs_nil h3
      have := Libs.line hn (mid := nl :: X) (.inl rfl) (.done h1 h2)
      simpa using this

/-- Appending a newline and further objects to a file. -/
theorem file_append {cfg : Cfg} {toks} {file : FileAst} (h : FileOk cfg toks file)
    {objs' : List ObjAst} {X : List Tok} (hX : BodyEnd X)
    (h' : Objects cfg (countsOf (file.objects.flatMap ObjAst.items)) objs' X) :
    FileOk cfg (toks ++ nl :: X) ⟨file.libs, file.objects ++ objs'⟩ := by
  obtain ⟨rest, hl, ho⟩ := h
  by_cases hr : rest = []
  · subst hr
    refine ⟨X, libs_append_nl hl ?_ ?_, ?_⟩
    · rcases hX with rfl | h
      · simp
      · rw [h]; decide
    · rcases hX with rfl | h
      · simp
      · rw [h]; decide
    · generalize file.objects = objs at ho h' ⊢
      cases ho with
      | done => exact h'
      | obj hh => cases hh
  · exact ⟨rest ++ nl :: X, libs_append hl hr _, objects_append ho hr hX (by rwa [counts_zero_add])⟩

/-! ## A body by itself -/

/-- The tokens of a body, cut off from what follows. -/
theorem body_cut {cfg : Cfg} {lo hi : Counts} {items toks rest} (h : Body cfg lo hi items toks rest) :
    ∃ body, toks = body ++ rest ∧ Body cfg lo hi items body [] := by
  induction h with
  | done => exact ⟨[], rfl, .done (.inl rfl)⟩
  | blank _ ih =>
    obtain ⟨body, rfl, hb⟩ := ih
    exact ⟨nl :: body, rfl, .blank hb⟩
  | stmt h _ ih =>
    obtain ⟨body, rfl, hb⟩ := ih
    obtain ⟨b, last, rfl, -, hr⟩ := stmt_shape h
    refine ⟨b ++ last :: body, by simp, .stmt (hr body ⟨?_, ?_⟩) hb⟩
    · cases body with
      | nil => exact .inr (by simp [NoFloat])
      | cons x body => exact .inl (by simp)
    · intro e
      exact (List.append_eq_nil_iff.mp e).1

end Verif.Spec.Obj
