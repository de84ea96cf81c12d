import Verif.Proofs.MtlFile

/-!
# Where statements of a material library begin and end
-/

namespace Verif.Spec.Mtl

open Verif Verif.Mtl

theorem float_ne_nl {t : Tok} (h : isFloat t = true) : t ≠ nl := by
  rintro rfl
  revert h
  decide

theorem tags_ne_nl {s : MapSlot} {tag : Tok} (h : tag ∈ s.tags) : tag ≠ nl := by
  rintro rfl
  cases s <;> revert h <;> decide

theorem colorTag_ne_nl (s : ColorSlot) : s.tag ≠ nl := by cases s <;> decide

theorem numTag_ne_nl (s : NumSlot) : s.tag ≠ nl := by cases s <;> decide

/-- The tokens of a statement, and the statement in front of any other tokens. A newline can
only be the last of them. -/
theorem stmt_shape {it toks rest} (h : Stmt it toks rest) :
    ∃ body last, toks = body ++ last :: rest ∧ nl ∉ body ∧
      ∀ rest', Stmt it (body ++ last :: rest') rest' := by
  cases h with
  | @color s r g b _ h1 h2 h3 =>
    refine ⟨[s.tag, r, g], b, rfl, ?_, fun rest' => .color h1 h2 h3⟩
    simp [(float_ne_nl h1).symm, (float_ne_nl h2).symm, (colorTag_ne_nl s).symm]
  | @num s x _ h1 => exact ⟨[s.tag], x, rfl, by simp [(numTag_ne_nl s).symm], fun rest' => .num h1⟩
  | @illum model t _ h1 => exact ⟨[b!"illum"], t, rfl, by decide, fun rest' => .illum h1⟩
  | @map s tag name _ h1 => exact ⟨[tag], name, rfl, by simp [(tags_ne_nl h1).symm], fun rest' => .map h1⟩

theorem stmt_suffix {it toks rest} (h : Stmt it toks rest) : rest <:+ toks := by
  obtain ⟨body, last, rfl, -, -⟩ := stmt_shape h
  exact ⟨body ++ [last], by simp⟩

theorem stmtErr_suffix {toks k m rest} (h : StmtErr toks k m rest) : rest <:+ toks := by
  have key : ∀ (ts : List Tok) (t a : Tok) (rest : List Tok), rest <:+ a :: (ts ++ t :: rest) :=
    fun ts t a rest => ⟨a :: (ts ++ [t]), by simp⟩
  cases h with
  | color_eof => exact List.nil_suffix
  | color_bad => exact key _ _ _ _
  | num_eof => exact List.nil_suffix
  | num_bad => exact key [] _ _ _
  | illum_eof => exact List.nil_suffix
  | illum_bad => exact key [] _ _ _
  | illum_unknown => exact key [] _ _ _
  | map_eof => exact List.nil_suffix
  | unknown => exact List.suffix_refl _

theorem body_suffix {items toks rest} (h : Body items toks rest) : rest <:+ toks := by
  induction h with
  | done => exact List.suffix_refl _
  | blank _ ih => exact ih.trans (List.suffix_cons _ _)
  | stmt h _ ih => exact ih.trans (stmt_suffix h)

theorem bodyErr_suffix {toks k m rest} (h : BodyErr toks k m rest) : rest <:+ toks := by
  induction h with
  | here h => exact stmtErr_suffix h
  | blank _ ih => exact ih.trans (List.suffix_cons _ _)
  | later h _ ih => exact ih.trans (stmt_suffix h)

theorem matsErr_suffix {toks k m rest} (h : MatsErr toks k m rest) : rest <:+ toks := by
  have key : ∀ (name : Tok) (toks : List Tok), toks <:+ b!"newmtl" :: name :: toks :=
    fun name toks => ⟨[b!"newmtl", name], rfl⟩
  induction h with
  | no_name => exact List.nil_suffix
  | body h => exact (bodyErr_suffix h).trans (key _ _)
  | later h _ ih => exact ih.trans ((body_suffix h).trans (key _ _))

theorem fileErr_suffix {toks k m rest} (h : FileErr toks k m rest) : rest <:+ toks := by
  induction h with
  | blank _ ih => exact ih.trans (List.suffix_cons _ _)
  | trailing => exact List.suffix_refl _
  | mats h => exact matsErr_suffix h

/-! ## Unambiguity -/

theorem tags_unique {s s' : MapSlot} {tag : Tok} (h : tag ∈ s.tags) (h' : tag ∈ s'.tags) : s = s' := by
  cases s <;> cases s' <;> first | rfl | (simp [MapSlot.tags] at h h'; simp_all)

theorem colorTag_inj {s s' : ColorSlot} (h : s.tag = s'.tag) : s = s' := by
  cases s <;> cases s' <;> first | rfl | (revert h; decide)

theorem numTag_inj {s s' : NumSlot} (h : s.tag = s'.tag) : s = s' := by
  cases s <;> cases s' <;> first | rfl | (revert h; decide)

theorem illumNumber_inj {a b : IlluminationModel} (h : illumNumber a = illumNumber b) : a = b := by
  cases a <;> cases b <;> first | rfl | (revert h; decide)

theorem color_ne_num (s : ColorSlot) (s' : NumSlot) : s.tag ≠ s'.tag := by cases s <;> cases s' <;> decide
theorem color_ne_illum (s : ColorSlot) : s.tag ≠ b!"illum" := by cases s <;> decide
theorem num_ne_illum (s : NumSlot) : s.tag ≠ b!"illum" := by cases s <;> decide
theorem color_not_map (s : ColorSlot) (s' : MapSlot) : s.tag ∉ s'.tags := by
  cases s <;> cases s' <;> decide
theorem num_not_map (s : NumSlot) (s' : MapSlot) : s.tag ∉ s'.tags := by
  cases s <;> cases s' <;> decide
theorem illum_not_map (s' : MapSlot) : b!"illum" ∉ s'.tags := by cases s' <;> decide

theorem stmt_unique {it it' toks rest rest'} (h : Stmt it toks rest) (h' : Stmt it' toks rest') :
    it = it' ∧ rest = rest' := by
  generalize e : toks = toks' at h'
  cases h with
  | color =>
    cases h' with
    | color =>
      simp only [List.cons.injEq] at e
      obtain ⟨h1, rfl, rfl, rfl, rfl⟩ := e
      exact ⟨by rw [colorTag_inj h1], rfl⟩
    | num => simp only [List.cons.injEq] at e; exact absurd e.1 (color_ne_num _ _)
    | illum => simp only [List.cons.injEq] at e; exact absurd e.1 (color_ne_illum _)
    | map hm => simp only [List.cons.injEq] at e; rw [← e.1] at hm; exact absurd hm (color_not_map _ _)
  | num =>
    cases h' with
    | color => simp only [List.cons.injEq] at e; exact absurd e.1.symm (color_ne_num _ _)
    | num =>
      simp only [List.cons.injEq] at e
      obtain ⟨h1, rfl, rfl⟩ := e
      exact ⟨by rw [numTag_inj h1], rfl⟩
    | illum => simp only [List.cons.injEq] at e; exact absurd e.1 (num_ne_illum _)
    | map hm => simp only [List.cons.injEq] at e; rw [← e.1] at hm; exact absurd hm (num_not_map _ _)
  | illum hi =>
    cases h' with
    | color => simp only [List.cons.injEq] at e; exact absurd e.1.symm (color_ne_illum _)
    | num => simp only [List.cons.injEq] at e; exact absurd e.1.symm (num_ne_illum _)
    | illum hi' =>
      simp only [List.cons.injEq, true_and] at e
      obtain ⟨rfl, rfl⟩ := e
      rw [hi] at hi'
      simp only [Option.some.injEq] at hi'
      exact ⟨by rw [illumNumber_inj hi'], rfl⟩
    | map hm => simp only [List.cons.injEq] at e; rw [← e.1] at hm; exact absurd hm (illum_not_map _)
  | map hm =>
    cases h' with
    | color => simp only [List.cons.injEq] at e; rw [e.1] at hm; exact absurd hm (color_not_map _ _)
    | num => simp only [List.cons.injEq] at e; rw [e.1] at hm; exact absurd hm (num_not_map _ _)
    | illum => simp only [List.cons.injEq] at e; rw [e.1] at hm; exact absurd hm (illum_not_map _)
    | map hm' =>
      simp only [List.cons.injEq] at e
      obtain ⟨rfl, rfl, rfl⟩ := e
      exact ⟨by rw [tags_unique hm hm'], rfl⟩

theorem stmt_not_end {it toks rest} (h : BodyEnd toks) : ¬ Stmt it toks rest := by
  intro hs
  obtain ⟨t, tl, rfl, h1, h2⟩ := stmt_head hs
  rcases h with h | h
  · cases h
  · simp only [List.head?_cons, Option.some.injEq] at h
    exact h2 h

theorem bodyEnd_not_nl {toks : List Tok} (h : BodyEnd (nl :: toks)) : False := by
  rcases h with h | h
  · cases h
  · simp [nl] at h

theorem stmt_not_nl {it toks rest} : ¬ Stmt it (nl :: toks) rest := by
  intro hs
  obtain ⟨t, tl, e, h1, h2⟩ := stmt_head hs
  simp only [List.cons.injEq] at e
  exact h1 e.1.symm

theorem body_unique {items items' toks rest rest'} (h : Body items toks rest) (h' : Body items' toks rest') :
    items = items' ∧ rest = rest' := by
  induction h generalizing items' with
  | done h =>
    cases h' with
    | done => exact ⟨rfl, rfl⟩
    | blank => exact absurd h bodyEnd_not_nl
    | stmt hs => exact absurd hs (stmt_not_end h)
  | blank _ ih =>
    cases h' with
    | done h => exact absurd h bodyEnd_not_nl
    | blank h' => exact ih h'
    | stmt hs => exact absurd hs stmt_not_nl
  | stmt hs _ ih =>
    cases h' with
    | done h => exact absurd hs (stmt_not_end h)
    | blank => exact absurd hs stmt_not_nl
    | stmt hs' h' =>
      obtain ⟨rfl, rfl⟩ := stmt_unique hs hs'
      obtain ⟨rfl, rfl⟩ := ih h'
      exact ⟨rfl, rfl⟩

theorem mats_unique {mats mats' toks} (h : Mats mats toks) (h' : Mats mats' toks) : mats = mats' := by
  induction h generalizing mats' with
  | done => cases h'; rfl
  | mat hb _ ih =>
    cases h' with
    | mat hb' h' =>
      obtain ⟨rfl, rfl⟩ := body_unique hb hb'
      rw [ih h']

theorem file_unique {mats mats' toks} (h : FileOk toks mats) (h' : FileOk toks mats') : mats = mats' :=
  mats_unique (file_ok_trim h) (file_ok_trim h')

/-! ## Reading up to a line end -/

/-- `At toks done name items here`: the materials `done` and of the material `name` the statements
`items` have been read, and `here` comes next. -/
inductive At : List Tok → List MatAst → Bytes → List Item → List Tok → Prop
  | start {toks name} : At (b!"newmtl" :: name :: toks) [] name [] toks
  | file_blank {toks done name items here} : At toks done name items here → At (nl :: toks) done name items here
  | blank {toks done name items here} : At toks done name items (nl :: here) → At toks done name items here
  | stmt {toks done name items it here here'} : At toks done name items here → Stmt it here here' →
      At toks done name (items ++ [it]) here'
  | next {toks done name items name' here} : At toks done name items (b!"newmtl" :: name' :: here) →
      At toks (done ++ [⟨name, items⟩]) name' [] here

theorem mats_not_nl {mats toks} : ¬ Mats mats (nl :: toks) := by
  intro h
  generalize e : nl :: toks = toks' at h
  cases h with
  | done => cases e
  | mat => simp [nl] at e

/-- What follows a position decides about the file. -/
theorem at_ok {toks done name items here} (h : At toks done name items here) {items' rest mats}
    (hb : Body items' here rest) (hm : Mats mats rest) :
    FileOk toks (done ++ ⟨name, items ++ items'⟩ :: mats) := by
  induction h generalizing items' rest mats with
  | start => exact .mats (.mat hb hm)
  | file_blank _ ih => exact .blank (ih hb hm)
  | blank _ ih => exact ih (.blank hb) hm
  | stmt _ hs ih =>
    have := ih (.stmt hs hb) hm
    simpa using this
  | next _ ih =>
    have := ih (items' := []) (.done (.inr rfl)) (.mat hb hm)
    simpa using this

theorem at_fail {toks done name items here} (h : At toks done name items here) :
    (∀ {k m rest}, BodyErr here k m rest → FileErr toks k m rest) ∧
    (∀ {items mid k m rest}, Body items here mid → MatsErr mid k m rest → FileErr toks k m rest) := by
  induction h with
  | start => exact ⟨fun h => .mats (.body h), fun h h' => .mats (.later h h')⟩
  | file_blank _ ih => exact ⟨fun h => .blank (ih.1 h), fun h h' => .blank (ih.2 h h')⟩
  | blank _ ih => exact ⟨fun h => ih.1 (.blank h), fun h h' => ih.2 (.blank h) h'⟩
  | stmt _ hs ih => exact ⟨fun h => ih.1 (.later hs h), fun h h' => ih.2 (.stmt hs h) h'⟩
  | next _ ih =>
    exact ⟨fun h => ih.2 (.done (.inr rfl)) (.body h), fun h h' => ih.2 (.done (.inr rfl)) (.later h h')⟩

theorem at_err {toks done name items here} (h : At toks done name items here) {k m rest}
    (hb : BodyErr here k m rest) : FileErr toks k m rest := (at_fail h).1 hb

theorem at_later {toks done name items here} (h : At toks done name items here) {items' mid k m rest}
    (hb : Body items' here mid) (hm : MatsErr mid k m rest) : FileErr toks k m rest :=
  (at_fail h).2 hb hm

/-- An error in front of a line end does not depend on what follows. -/
theorem stmtErr_append {A : List Tok} {k m rest} (h : StmtErr (A ++ [nl]) k m rest) :
    ∃ u, ∀ Y, StmtErr (A ++ nl :: Y) k m (u ++ Y) := by
  generalize e : A ++ [nl] = toks at h
  have hY : ∀ Y, A ++ nl :: Y = toks ++ Y := by intro Y; rw [← e]; simp
  have hlast : nl ∈ toks := by rw [← e]; simp
  simp only [hY]
  cases h with
  | @color_eof s xs h1 h2 =>
    simp only [List.mem_cons, (colorTag_ne_nl s).symm, false_or] at hlast
    exact absurd rfl (float_ne_nl (h2 _ hlast))
  | @color_bad s xs t rest h1 h2 h3 =>
    refine ⟨rest, fun Y => ?_⟩
    have := StmtErr.color_bad (s := s) (rest := rest ++ Y) h1 h2 h3
    simpa using this
  | @num_eof s =>
    simp only [List.mem_singleton] at hlast
    exact absurd hlast.symm (numTag_ne_nl s)
  | num_bad h => exact ⟨_, fun Y => .num_bad h⟩
  | illum_eof => exact absurd hlast (by decide)
  | illum_bad h => exact ⟨_, fun Y => .illum_bad h⟩
  | illum_unknown h h' => exact ⟨_, fun Y => .illum_unknown h h'⟩
  | map_eof h =>
    simp only [List.mem_singleton] at hlast
    exact absurd hlast.symm (tags_ne_nl h)
  | @unknown t rest h1 h2 h3 => exact ⟨t :: rest, fun Y => .unknown h1 h2 h3⟩

/-- Inside a material, a text that ends with a line end is rejected or leads to a place where
a statement is expected, whatever follows. -/
theorem at_line (A : List Tok) (g : List Tok → List Tok) {done name items}
    (h : ∀ Y, At (g Y) done name items (A ++ nl :: Y)) :
    (∃ k m u, ∀ Y, FileErr (g Y) k m (u ++ Y)) ∨
    (∃ done name items, ∀ Y, At (g Y) done name items Y) := by
  induction hn : A.length using Nat.strongRecOn generalizing A done name items with
  | ind n ih =>
    cases A with
    | nil => exact .inr ⟨done, name, items, fun Y => .blank (h Y)⟩
    | cons t tl =>
      simp only [List.length_cons] at hn
      by_cases h1 : t = nl
      · subst h1
        exact ih tl.length (by omega) tl (fun Y => .blank (h Y)) rfl
      by_cases h2 : t = b!"newmtl"
      · subst h2
        cases tl with
        | nil => exact .inr ⟨_, nl, [], fun Y => .next (h Y)⟩
        | cons name' tl =>
          simp only [List.length_cons] at hn
          exact ih tl.length (by omega) tl (fun Y => .next (h Y)) rfl
      rcases stmt_total h1 h2 (tl ++ [nl]) with ⟨it, rest, hs⟩ | ⟨k, m, rest, hs⟩
      · obtain ⟨body, last, e, hb, hr⟩ := stmt_shape hs
        by_cases he : rest = []
        · subst he
          refine .inr ⟨_, name, items ++ [it], fun Y => .stmt (h Y) ?_⟩
          have e' : t :: tl ++ nl :: Y = (t :: (tl ++ [nl])) ++ Y := by simp
          rw [e', e]
          simpa using hr Y
        · obtain ⟨init, last', rfl⟩ : ∃ init l', rest = init ++ [l'] :=
            ⟨rest.dropLast, rest.getLast he, (List.dropLast_concat_getLast he).symm⟩
          have e' : t :: tl ++ [nl] = (body ++ last :: init) ++ [last'] := by simpa using e
          have hx := List.append_inj' e' rfl
          simp only [List.cons.injEq, and_true] at hx
          obtain ⟨hx1, rfl⟩ := hx
          have hl : init.length < tl.length + 1 := by
            have := congrArg List.length hx1
            simp only [List.length_cons, List.length_append] at this
            omega
          refine ih init.length (by omega) init (items := items ++ [it]) (fun Y => .stmt (h Y) ?_) rfl
          rw [hx1]
          simpa using hr (init ++ nl :: Y)
      · obtain ⟨u, hu⟩ := stmtErr_append (A := t :: tl) hs
        exact .inl ⟨k, m, u, fun Y => at_err (h Y) (.here (hu Y))⟩

/-- The same from the beginning of a file. -/
theorem file_line (A : List Tok) :
    (∃ k m u, ∀ Y, FileErr (A ++ nl :: Y) k m (u ++ Y)) ∨
    (∃ done name items, ∀ Y, At (A ++ nl :: Y) done name items Y) ∨ (∀ t ∈ A, t = nl) := by
  induction A with
  | nil => exact .inr (.inr (by simp))
  | cons t tl ih =>
    by_cases h1 : t = nl
    · subst h1
      rcases ih with ⟨k, m, u, h⟩ | ⟨done, name, items, h⟩ | h
      · exact .inl ⟨k, m, u, fun Y => .blank (h Y)⟩
      · exact .inr (.inl ⟨done, name, items, fun Y => .file_blank (h Y)⟩)
      · exact .inr (.inr (by simpa using h))
    · by_cases h2 : t = b!"newmtl"
      · subst h2
        cases tl with
        | nil => exact .inr (.inl ⟨[], nl, [], fun Y => .start⟩)
        | cons name tl =>
          rcases at_line tl (fun Y => b!"newmtl" :: name :: (tl ++ nl :: Y)) (fun Y => .start) with h | h
          · exact .inl h
          · exact .inr (.inl h)
      · refine .inl ⟨.ExpectedEndOfInput, trailingText t, t :: (tl ++ [nl]), fun Y => ?_⟩
        have := FileErr.trailing (toks := tl ++ nl :: Y) h1 h2
        simpa using this

/-! ## Concatenation -/

theorem body_append {items toks rest} (h : Body items toks rest) (Y : List Tok) (hr : rest ≠ [] ∨ BodyEnd Y) :
    Body items (toks ++ Y) (rest ++ Y) := by
  induction h with
  | @done rest h =>
    refine .done ?_
    cases rest with
    | nil =>
      rcases hr with hr | hr
      · exact absurd rfl hr
      · exact hr
    | cons t tl =>
      rcases h with h | h
      · cases h
      · exact .inr h
  | blank _ ih => exact .blank (ih hr)
  | stmt h _ ih =>
    obtain ⟨body, last, rfl, -, h'⟩ := stmt_shape h
    refine .stmt ?_ (ih hr)
    rw [List.append_assoc]
    exact h' _

/-- Blank lines after the end of a body. -/
theorem body_blanks {items toks} (h : Body items toks []) {n : Nat} {m : List Tok} (hm : BodyEnd m) :
    Body items (toks ++ (List.replicate n nl ++ m)) m := by
  generalize hrest : ([] : List Tok) = rest at h
  induction h with
  | done =>
    subst hrest
    induction n with
    | zero => exact .done hm
    | succ n ih => exact .blank ih
  | blank _ ih => exact .blank (ih hrest)
  | stmt h _ ih =>
    obtain ⟨body, last, rfl, -, h'⟩ := stmt_shape h
    refine .stmt ?_ (ih hrest)
    rw [List.append_assoc]
    exact h' _

theorem mats_end {mats toks} (h : Mats mats toks) : BodyEnd toks := by
  cases h with
  | done => exact .inl rfl
  | mat => exact .inr rfl

theorem mats_append {mats toks} (h : Mats mats toks) {n : Nat} {mats' m} (hm : Mats mats' m)
    (hne : mats ≠ []) : Mats (mats ++ mats') (toks ++ (List.replicate n nl ++ m)) := by
  induction h with
  | done => exact absurd rfl hne
  | @mat name items mats toks rest hb h ih =>
    by_cases he : mats = []
    · subst he
      cases h with
      | done => exact .mat (body_blanks hb (mats_end hm)) hm
    · have hr : rest ≠ [] := by
        rintro rfl
        cases h
        exact he rfl
      exact .mat (body_append hb _ (.inl hr)) (ih he)

theorem file_shape {toks mats} (h : FileOk toks mats) :
    ∃ n m, toks = List.replicate n nl ++ m ∧ Mats mats m := by
  induction h with
  | blank _ ih =>
    obtain ⟨n, m, rfl, h⟩ := ih
    exact ⟨n + 1, m, rfl, h⟩
  | mats h => exact ⟨0, _, rfl, h⟩

theorem file_of_shape {n : Nat} {m mats} (h : Mats mats m) : FileOk (List.replicate n nl ++ m) mats := by
  induction n with
  | zero => exact .mats h
  | succ n ih => exact .blank ih

/-- Files concatenate. -/
theorem file_append {a b mats mats'} (ha : FileOk a mats) (hb : FileOk b mats') :
    FileOk (a ++ nl :: b) (mats ++ mats') := by
  obtain ⟨n, m, rfl, hm⟩ := file_shape ha
  obtain ⟨n', m', rfl, hm'⟩ := file_shape hb
  by_cases he : mats = []
  · subst he
    cases hm with
    | done =>
      have e : List.replicate n nl ++ [] ++ nl :: (List.replicate n' nl ++ m') =
          List.replicate (n + 1 + n') nl ++ m' := by
        rw [← List.replicate_append_replicate, List.replicate_succ']
        simp
      rw [e]
      exact file_of_shape hm'
  · have := mats_append hm (n := n' + 1) hm' he
    have := file_of_shape (n := n) this
    simpa [List.replicate_succ] using this

end Verif.Spec.Mtl
