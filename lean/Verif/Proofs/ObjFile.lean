import Verif.Proofs.ObjTables

/-!
# Objects and whole OBJ files: the code against the specification
-/

namespace Verif.Obj

open Verif Verif.Spec.Obj

variable {F : Type} [FloatSem F]

/-! ## The object loop -/

/-- All the ways the object loop can end, as one relation. -/
inductive Run (cfg : Cfg) (lo : Counts) :
    Counts → ObjState F → List Tok → Res ErrorKind (ObjState F) → List Tok → Prop
  | done {hi st rest} : BodyEnd rest → Run cfg lo hi st rest (.ok (closeTables st)) rest
  | blank {hi st toks o rest} : Run cfg lo hi st toks o rest → Run cfg lo hi st (nl :: toks) o rest
  | stmt {hi st it toks mid o rest} : Stmt cfg lo hi it toks mid →
      Run cfg lo (hi + it.counts) (applyItem lo st it) mid o rest → Run cfg lo hi st toks o rest
  | err {hi st toks k m rest} : StmtErr cfg lo hi toks k m rest →
      Run cfg lo hi st toks (.err k m) rest
  | panic {hi st toks rest} : StmtPanic cfg lo hi toks rest →
      Run cfg lo hi st toks (.panic .indexSubOverflow) rest

theorem Run.of_body {cfg : Cfg} {lo hi : Counts} {items toks rest}
    (h : Body cfg lo hi items toks rest) (st : ObjState F) :
    Run cfg lo hi st toks (.ok (closeTables (items.foldl (applyItem lo) st))) rest := by
  induction h generalizing st with
  | done h => exact .done h
  | blank _ ih => exact .blank (ih st)
  | stmt h _ ih => exact .stmt h (ih _)

theorem Run.of_err {cfg : Cfg} {lo hi : Counts} {toks k m rest}
    (h : BodyErr cfg lo hi toks k m rest) (st : ObjState F) :
    Run cfg lo hi st toks (.err k m) rest := by
  induction h generalizing st with
  | here h => exact .err h
  | blank _ ih => exact .blank (ih st)
  | later h _ ih => exact .stmt h (ih _)

theorem Run.of_panic {cfg : Cfg} {lo hi : Counts} {toks rest}
    (h : BodyPanic cfg lo hi toks rest) (st : ObjState F) :
    Run cfg lo hi st toks (.panic .indexSubOverflow) rest := by
  induction h generalizing st with
  | here h => exact .panic h
  | blank _ ih => exact .blank (ih st)
  | later h _ ih => exact .stmt h (ih _)

theorem StmtErr.head {cfg : Cfg} {lo hi : Counts} {toks : List Tok} {k m rest}
    (h : StmtErr cfg lo hi toks k m rest) : ∃ t tl, toks = t :: tl ∧ t ≠ nl ∧ t ≠ b!"o" := by
  cases h with
  | unknown h =>
    simp only [keywords, List.mem_cons, List.not_mem_nil, or_false, not_or] at h
    exact ⟨_, _, rfl, h.2.2.2.2.2.2.2.2.2.1, h.2.2.2.2.2.2.2.2.2.2⟩
  | _ => exact ⟨_, _, rfl, by decide, by decide⟩

theorem StmtPanic.head {cfg : Cfg} {lo hi : Counts} {toks : List Tok} {rest}
    (h : StmtPanic cfg lo hi toks rest) : ∃ t tl, toks = t :: tl ∧ t ≠ nl ∧ t ≠ b!"o" := by
  cases h <;> exact ⟨_, _, rfl, by decide, by decide⟩

/-- Drop leading newlines. -/
abbrev trim (toks : List Tok) : List Tok := toks.dropWhile (· = nl)

theorem trim_nl (toks : List Tok) : trim (nl :: toks) = trim toks := by simp [trim]

theorem trim_cons {t : Tok} (h : t ≠ nl) (toks : List Tok) : trim (t :: toks) = t :: toks := by
  simp [trim, h]

theorem trim_length_le (toks : List Tok) : (trim toks).length ≤ toks.length := by
  induction toks with
  | nil => simp [trim]
  | cons t toks ih =>
    by_cases h : t = nl
    · subst h; rw [trim_nl]; simp; omega
    · rw [trim_cons h]; exact Nat.le_refl _

theorem bodyEnd_trim {rest : List Tok} (h : BodyEnd rest) : trim rest = rest := by
  rcases h with rfl | h
  · rfl
  · cases rest with
    | nil => rfl
    | cons t rest =>
      simp only [List.head?_cons, Option.some.injEq] at h
      subst h
      exact trim_cons (by decide) _

/-- All counters plus `n` fit. -/
def Fits (c : Counts) (n : Nat) : Prop := c.v + n < 2 ^ 63 ∧ c.vt + n < 2 ^ 63 ∧ c.vn + n < 2 ^ 63

theorem Fits.small {c : Counts} {n : Nat} (h : Fits c n) : Small c := by
  obtain ⟨h1, h2, h3⟩ := h
  exact ⟨by omega, by omega, by omega⟩

theorem Fits.step {c : Counts} {n m : Nat} (h : Fits c n) (hm : m < n) (it : Item) :
    Fits (c + it.counts) m := by
  obtain ⟨h1, h2, h3⟩ := h
  rw [counts_add]
  cases it <;> simp only [Item.counts] <;> exact ⟨by dsimp only; omega, by dsimp only; omega, by dsimp only; omega⟩

theorem Fits.mono {c : Counts} {n m : Nat} (h : Fits c n) (hm : m ≤ n) : Fits c m := by
  obtain ⟨h1, h2, h3⟩ := h
  exact ⟨by omega, by omega, by omega⟩

theorem ranges_step {lo hi : Counts} {st : ObjState F} (h : st.ctr.ranges = rng lo hi) (it : Item) :
    (applyItem lo st it).ctr.ranges = rng lo (hi + it.counts) := by
  rw [counts_add]
  simp only [Counters.ranges, rng, Ranges.mk.injEq, Prod.mk.injEq] at h ⊢
  obtain ⟨⟨h1, h2⟩, ⟨h3, h4⟩, ⟨h5, h6⟩⟩ := h
  cases it with
  | g => simp only [applyItem, Item.counts]; split <;> simp [h1, h2, h3, h4, h5, h6]
  | s => simp only [applyItem, Item.counts]; split <;> simp [h1, h2, h3, h4, h5, h6]
  | _ => simp [applyItem, Item.counts, fillDefaults_ctr, h1, h2, h3, h4, h5, h6]

theorem loop_nl {cfg : Cfg} {fuel0 fuel : Nat} {toks : List Tok} {st : ObjState F} {o rest}
    (hf : toks.length < fuel0)
    (h : Yields (object_loop cfg fuel0 fuel st) (trim toks) o rest) :
    Yields (object_loop cfg fuel0 (fuel + 1) st) (nl :: toks) o rest := by
  rw [object_loop]
  refine Yields.bind (Yields.peek _) ?_
  simp only [List.head?_cons]
  refine Yields.ite_neg (by decide) (Yields.ite_neg (by decide) (Yields.ite_neg (by decide)
    (Yields.ite_neg (by decide) (Yields.ite_neg (by decide) (Yields.ite_neg (by decide)
    (Yields.ite_neg (by decide) (Yields.ite_pos trivial ?_)))))))
  refine Yields.bind (a := ()) (mid := trim toks) ?_ h
  unfold skip_one_or_more_newlines
  exact Yields.bind (expect_tag_cons _ _) (Yields.bind (Yields.skip_zero _ hf) (Yields.pure _ _))

theorem Run.yields {cfg : Cfg} {lo hi : Counts} {st : ObjState F} {toks o rest}
    (h : Run cfg lo hi st toks o rest) (hc : st.ctr.ranges = rng lo hi) (hs : Fits hi toks.length)
    {fuel0 : Nat} (hf0 : toks.length < fuel0) {fuel : Nat} (hf : (trim toks).length < fuel) :
    Yields (object_loop cfg fuel0 fuel st) (trim toks) o rest := by
  induction h generalizing fuel with
  | done h =>
    rw [bodyEnd_trim h] at hf ⊢
    obtain ⟨fuel, rfl⟩ : ∃ k, fuel = k + 1 := ⟨fuel - 1, by omega⟩
    rw [object_loop]
    refine Yields.bind (Yields.peek _) ?_
    rcases h with rfl | h
    · exact Yields.pure _ _
    · rw [h]
      simp only
      refine Yields.ite_neg (by decide) (Yields.ite_neg (by decide) (Yields.ite_neg (by decide)
        (Yields.ite_neg (by decide) (Yields.ite_neg (by decide) (Yields.ite_neg (by decide)
        (Yields.ite_neg (by decide) (Yields.ite_neg (by decide) (Yields.ite_pos trivial ?_))))))))
      exact Yields.pure _ _
  | blank _ ih =>
    rw [trim_nl] at hf ⊢
    simp only [List.length_cons] at hf0 hs
    exact ih hc (hs.mono (by omega)) (by omega) hf
  | @stmt hi st it toks mid o rest h1 h2 ih =>
    obtain ⟨t, tl, rfl, ht1, ht2, -⟩ := Stmt.head h1
    have hlt := Stmt.length_lt h1
    rw [trim_cons ht1] at hf ⊢
    obtain ⟨fuel, rfl⟩ : ∃ k, fuel = k + 1 := ⟨fuel - 1, by omega⟩
    refine loop_of_step ht1 ht2 ?_
    refine Yields.bind (stmt_ok hs.small h1 hc hf0) ?_
    have ih := fun {fuel} => @ih (ranges_step hc it) (hs.step hlt it) (by omega) fuel
    cases mid with
    | nil => exact ih (by simp only [List.length_nil, trim, List.dropWhile_nil]; omega)
    | cons t' mid =>
      by_cases ht' : t' = nl
      · subst ht'
        simp only [List.length_cons] at hlt hf0 hf
        obtain ⟨fuel, rfl⟩ : ∃ k, fuel = k + 1 := ⟨fuel - 1, by omega⟩
        refine loop_nl (by omega) ?_
        have := trim_length_le mid
        have := ih (fuel := fuel) (by rw [trim_nl]; omega)
        rwa [trim_nl] at this
      · have := ih (fuel := fuel) (by rw [trim_cons ht']; omega)
        rwa [trim_cons ht'] at this
  | err h =>
    obtain ⟨t, tl, rfl, ht1, ht2⟩ := StmtErr.head h
    rw [trim_cons ht1] at hf ⊢
    obtain ⟨fuel, rfl⟩ : ∃ k, fuel = k + 1 := ⟨fuel - 1, by omega⟩
    refine loop_of_step ht1 ht2 ?_
    exact Yields.bind_err (stmt_err hs.small h hc hf0)
  | panic h =>
    obtain ⟨t, tl, rfl, ht1, ht2⟩ := StmtPanic.head h
    rw [trim_cons ht1] at hf ⊢
    obtain ⟨fuel, rfl⟩ : ∃ k, fuel = k + 1 := ⟨fuel - 1, by omega⟩
    refine loop_of_step ht1 ht2 ?_
    exact Yields.bind_panic (stmt_panic h hc hf0)

theorem body_total (cfg : Cfg) (lo hi : Counts) (toks : List Tok) :
    (∃ items rest, Body cfg lo hi items toks rest) ∨
    (∃ k m rest, BodyErr cfg lo hi toks k m rest) ∨
    (∃ rest, BodyPanic cfg lo hi toks rest) := by
  induction hn : toks.length using Nat.strongRecOn generalizing hi toks with
  | ind n ih =>
    cases toks with
    | nil => exact .inl ⟨_, _, .done (.inl rfl)⟩
    | cons t tl =>
      simp only [List.length_cons] at hn
      by_cases ht1 : t = nl
      · subst ht1
        rcases ih tl.length (by omega) hi tl rfl with ⟨_, _, h⟩ | ⟨_, _, _, h⟩ | ⟨_, h⟩
        · exact .inl ⟨_, _, .blank h⟩
        · exact .inr (.inl ⟨_, _, _, .blank h⟩)
        · exact .inr (.inr ⟨_, .blank h⟩)
      · by_cases ht2 : t = b!"o"
        · subst ht2; exact .inl ⟨_, _, .done (.inr rfl)⟩
        · rcases stmt_total cfg lo hi ht1 ht2 tl with ⟨it, rest, h⟩ | ⟨_, _, _, h⟩ | ⟨_, h⟩
          · have hlt := Stmt.length_lt h
            simp only [List.length_cons] at hlt
            rcases ih rest.length (by omega) (hi + it.counts) rest rfl with
              ⟨_, _, h'⟩ | ⟨_, _, _, h'⟩ | ⟨_, h'⟩
            · exact .inl ⟨_, _, .stmt h h'⟩
            · exact .inr (.inl ⟨_, _, _, .later h h'⟩)
            · exact .inr (.inr ⟨_, .later h h'⟩)
          · exact .inr (.inl ⟨_, _, _, .here h⟩)
          · exact .inr (.inr ⟨_, .here h⟩)

/-! ## One object -/

theorem body_end {cfg : Cfg} {lo hi : Counts} {items toks rest}
    (h : Body cfg lo hi items toks rest) : BodyEnd rest := by
  induction h with
  | done h => exact h
  | blank _ ih => exact ih
  | stmt _ _ ih => exact ih

theorem body_length_le {cfg : Cfg} {lo hi : Counts} {items toks rest}
    (h : Body cfg lo hi items toks rest) : rest.length ≤ toks.length := by
  induction h with
  | done h => exact Nat.le_refl _
  | blank _ ih => simp only [List.length_cons]; omega
  | stmt h _ ih => have := Stmt.length_lt h; omega

theorem body_fits {cfg : Cfg} {lo hi : Counts} {items toks rest}
    (h : Body cfg lo hi items toks rest) (hs : Fits hi toks.length) :
    Fits (items.foldl (fun c it => c + it.counts) hi) rest.length := by
  induction h with
  | done h => exact hs
  | blank _ ih => simp only [List.length_cons] at hs; exact ih (hs.mono (by omega))
  | stmt h _ ih => exact ih (hs.step (Stmt.length_lt h) _)

theorem counts_fold (c : Counts) (items : List Item) :
    items.foldl (fun c it => c + it.counts) c = c + countsOf items := by
  have key : ∀ (items : List Item) (c d : Counts),
      items.foldl (fun c it => c + it.counts) (c + d) = c + items.foldl (fun c it => c + it.counts) d := by
    intro items
    induction items with
    | nil => intro c d; rfl
    | cons it items ih =>
      intro c d
      simp only [List.foldl_cons]
      rw [← ih]
      congr 1
      simp only [counts_add, Nat.add_assoc]
  have := key items c {}
  rw [countsOf, ← this]
  rfl

theorem header_length_le {toks name mid} (h : Header toks name mid) : mid.length ≤ toks.length := by
  cases h <;> simp
  omega

theorem header_body_lt {cfg : Cfg} {lo : Counts} {toks name mid items rest}
    (h : Header toks name mid) (hb : Body cfg lo lo items mid rest) : rest.length < toks.length := by
  cases h with
  | implicit ht =>
    cases hb with
    | done h => rcases h with h | h <;> simp_all
    | blank h => have := body_length_le h; simp only [List.length_cons]; omega
    | stmt h h' => have := Stmt.length_lt h; have := body_length_le h'; omega
  | named => have := body_length_le hb; simp only [List.length_cons]; omega

theorem header_ok {toks name mid} (h : Header toks name mid) (ht : toks.head? ≠ some nl) {fuel : Nat}
    (hf : toks.length < fuel) : Yields (parse_object_name fuel) toks (.ok name) (trim mid) := by
  unfold parse_object_name
  refine Yields.bind (Yields.peek _) ?_
  cases h with
  | @implicit t rest h =>
    simp only [List.head?_cons, Option.some.injEq, ne_eq] at ht ⊢
    rw [trim_cons ht]
    exact Yields.ite_neg h (Yields.pure _ _)
  | named =>
    simp only [List.length_cons] at hf
    refine Yields.ite_pos rfl ?_
    refine Yields.bind (expect_tag_cons _ _) ?_
    refine Yields.attempt_ok (next_string_cons _ _) ?_
    refine Yields.bind (a := ()) (mid := trim mid) ?_ (Yields.ofResult_ok _ _)
    unfold skip_one_or_more_newlines
    exact Yields.bind (expect_tag_cons _ _)
      (Yields.bind (Yields.skip_zero _ (by omega)) (Yields.pure _ _))

theorem header_err {toks k m rest} (h : HeaderErr toks k m rest) (fuel : Nat) :
    Yields (parse_object_name fuel) toks (.err k m) rest := by
  unfold parse_object_name
  refine Yields.bind (Yields.peek _) ?_
  have hnil : Yields (expect_tag nl) [] (.err .EndOfFile eofText) [] := by
    unfold expect_tag
    exact Yields.bind Yields.next_nil (Yields.error _ _ _)
  cases h with
  | no_name =>
    refine Yields.ite_pos rfl ?_
    refine Yields.bind (expect_tag_cons _ _) ?_
    refine Yields.attempt_err next_string_nil fun e => ?_
    unfold skip_one_or_more_newlines
    exact Yields.bind_err (Yields.bind_err hnil)
  | no_line =>
    refine Yields.ite_pos rfl ?_
    refine Yields.bind (expect_tag_cons _ _) ?_
    refine Yields.attempt_ok (next_string_cons _ _) ?_
    unfold skip_one_or_more_newlines
    exact Yields.bind_err (Yields.bind_err hnil)
  | @junk name t rest ht =>
    refine Yields.ite_pos rfl ?_
    refine Yields.bind (expect_tag_cons _ _) ?_
    refine Yields.attempt_ok (next_string_cons _ _) ?_
    unfold skip_one_or_more_newlines
    refine Yields.bind_err (Yields.bind_err ?_)
    unfold expect_tag
    refine Yields.bind (Yields.next_cons _ _) ?_
    exact Yields.ite_pos ht (Yields.error _ _ _)

theorem header_total (t : Tok) (tl : List Tok) :
    (∃ name mid, Header (t :: tl) name mid) ∨ (∃ k m rest, HeaderErr (t :: tl) k m rest) := by
  by_cases h : t = b!"o"
  · subst h
    match tl with
    | [] => exact .inr ⟨_, _, _, .no_name⟩
    | [_] => exact .inr ⟨_, _, _, .no_line⟩
    | name :: t :: tl =>
      by_cases h : t = nl
      · subst h; exact .inl ⟨_, _, .named⟩
      · exact .inr ⟨_, _, _, .junk h⟩
  · exact .inl ⟨_, _, .implicit h⟩

/-- The counters at the start of an object. -/
def ctrOf (lo : Counts) : Counters := ⟨lo.v, lo.v, lo.vt, lo.vt, lo.vn, lo.vn⟩

theorem object_ok {cfg : Cfg} {lo : Counts} {toks name mid items rest} (ht : toks.head? ≠ some nl)
    (hh : Header toks name mid) (hb : Body cfg lo lo items mid rest) (hn : ¬ Bare items)
    (hs : Fits lo toks.length) {fuel : Nat} (hf : toks.length < fuel) :
    Yields (parse_object cfg fuel (ctrOf lo) : OP _ (Object F × Counters)) toks
      (.ok (objMeaning lo ⟨name, items⟩, ctrOf (lo + countsOf items))) rest := by
  have hle := header_length_le hh
  have htr := trim_length_le mid
  unfold parse_object
  refine Yields.bind (header_ok hh ht hf) ?_
  refine Yields.bind ((Run.of_body hb (start lo)).yields rfl (hs.mono hle) (by omega) (by omega)) ?_
  rw [finish_ok cfg lo name hn]
  exact Yields.lift_ok _ _

theorem object_bare {cfg : Cfg} {lo : Counts} {toks name mid items rest} (ht : toks.head? ≠ some nl)
    (hh : Header toks name mid) (hb : Body cfg lo lo items mid rest) (hn : Bare items)
    (hs : Fits lo toks.length) {fuel : Nat} (hf : toks.length < fuel) :
    Yields (parse_object cfg fuel (ctrOf lo) : OP _ (Object F × Counters)) toks
      (.panic .materialIndex) rest := by
  have hle := header_length_le hh
  have htr := trim_length_le mid
  unfold parse_object
  refine Yields.bind (header_ok hh ht hf) ?_
  refine Yields.bind ((Run.of_body hb (start lo)).yields rfl (hs.mono hle) (by omega) (by omega)) ?_
  rw [finish_panic cfg lo name hn]
  exact Yields.lift_panic _ _

theorem object_err {cfg : Cfg} {lo : Counts} {toks name mid k m rest} (ht : toks.head? ≠ some nl)
    (hh : Header toks name mid) (hb : BodyErr cfg lo lo mid k m rest)
    (hs : Fits lo toks.length) {fuel : Nat} (hf : toks.length < fuel) :
    Yields (parse_object cfg fuel (ctrOf lo) : OP _ (Object F × Counters)) toks (.err k m) rest := by
  have hle := header_length_le hh
  have htr := trim_length_le mid
  unfold parse_object
  refine Yields.bind (header_ok hh ht hf) ?_
  exact Yields.bind_err ((Run.of_err hb (start lo)).yields rfl (hs.mono hle) (by omega) (by omega))

theorem object_panic {cfg : Cfg} {lo : Counts} {toks name mid rest} (ht : toks.head? ≠ some nl)
    (hh : Header toks name mid) (hb : BodyPanic cfg lo lo mid rest)
    (hs : Fits lo toks.length) {fuel : Nat} (hf : toks.length < fuel) :
    Yields (parse_object cfg fuel (ctrOf lo) : OP _ (Object F × Counters)) toks
      (.panic .indexSubOverflow) rest := by
  have hle := header_length_le hh
  have htr := trim_length_le mid
  unfold parse_object
  refine Yields.bind (header_ok hh ht hf) ?_
  exact Yields.bind_panic ((Run.of_panic hb (start lo)).yields rfl (hs.mono hle) (by omega) (by omega))

/-! ## All objects -/

theorem bodyEnd_head_ne {rest : List Tok} (h : BodyEnd rest) : rest.head? ≠ some nl := by
  rcases h with rfl | h
  · simp
  · rw [h]; decide

/-- One more object. -/
theorem objects_step {cfg : Cfg} {lo : Counts} {toks name mid items rest} (ht : toks.head? ≠ some nl)
    (hh : Header toks name mid) (hb : Body cfg lo lo items mid rest) (hn : ¬ Bare items)
    (hs : Fits lo toks.length) {fuel0 fuel : Nat} (hf0 : toks.length < fuel0)
    (acc : List (Object F)) {o rest'}
    (h : Yields (parse_objects_loop cfg fuel0 fuel (ctrOf (lo + countsOf items))
      (acc ++ [objMeaning lo ⟨name, items⟩])) rest o rest') :
    Yields (parse_objects_loop cfg fuel0 (fuel + 1) (ctrOf lo) acc) toks o rest' := by
  have hlt := header_body_lt hh hb
  rw [parse_objects_loop]
  refine Yields.bind (Yields.peek _) ?_
  cases toks with
  | nil => simp at hlt
  | cons t tl =>
    refine Yields.bind (object_ok ht hh hb hn hs hf0) ?_
    refine Yields.bind (Yields.skip_zero _ (by omega)) ?_
    have e : rest.dropWhile (· = nl) = rest := bodyEnd_trim (body_end hb)
    rw [e]
    exact h

theorem fits_next {cfg : Cfg} {lo : Counts} {toks name mid items rest} (hh : Header toks name mid)
    (hb : Body cfg lo lo items mid rest) (hs : Fits lo toks.length) :
    Fits (lo + countsOf items) rest.length := by
  have := body_fits hb (hs.mono (header_length_le hh))
  rwa [counts_fold] at this

theorem objects_ok {cfg : Cfg} {lo : Counts} {objs toks} (h : Objects cfg lo objs toks)
    (ht : toks.head? ≠ some nl) (hs : Fits lo toks.length) {fuel0 fuel : Nat}
    (hf0 : toks.length < fuel0) (hf : toks.length < fuel) (acc : List (Object F)) :
    Yields (parse_objects_loop cfg fuel0 fuel (ctrOf lo) acc) toks
      (.ok (acc ++ objectsMeaning lo objs)) [] := by
  induction h generalizing fuel acc with
  | done =>
    obtain ⟨fuel, rfl⟩ : ∃ k, fuel = k + 1 := ⟨fuel - 1, by omega⟩
    rw [parse_objects_loop]
    refine Yields.bind (Yields.peek _) ?_
    simp only [objectsMeaning, List.append_nil]
    exact Yields.pure _ _
  | @obj lo name items objs toks mid rest hh hb hn _ ih =>
    have hlt := header_body_lt hh hb
    obtain ⟨fuel, rfl⟩ : ∃ k, fuel = k + 1 := ⟨fuel - 1, by omega⟩
    refine objects_step ht hh hb hn hs hf0 acc ?_
    have := ih (bodyEnd_head_ne (body_end hb)) (fits_next hh hb hs) (by omega) (fuel := fuel) (by omega)
      (acc ++ [objMeaning lo ⟨name, items⟩])
    simpa [objectsMeaning] using this

theorem objects_err {cfg : Cfg} {lo : Counts} {toks k m rest} (h : ObjectsErr cfg lo toks k m rest)
    (ht : toks.head? ≠ some nl) (hs : Fits lo toks.length) {fuel0 fuel : Nat}
    (hf0 : toks.length < fuel0) (hf : toks.length < fuel) (acc : List (Object F)) :
    Yields (parse_objects_loop cfg fuel0 fuel (ctrOf lo) acc) toks (.err k m) rest := by
  induction h generalizing fuel acc with
  | header h =>
    obtain ⟨fuel, rfl⟩ : ∃ k, fuel = k + 1 := ⟨fuel - 1, by omega⟩
    rw [parse_objects_loop]
    refine Yields.bind (Yields.peek _) ?_
    cases h <;>
    · refine Yields.bind_err ?_
      unfold parse_object
      refine Yields.bind_err (header_err ?_ _)
      first | exact .no_name | exact .no_line | exact .junk ‹_›
  | body hh hb =>
    obtain ⟨fuel, rfl⟩ : ∃ k, fuel = k + 1 := ⟨fuel - 1, by omega⟩
    rw [parse_objects_loop]
    refine Yields.bind (Yields.peek _) ?_
    have := object_err (F := F) ht hh hb hs hf0
    cases hh <;> exact Yields.bind_err this
  | later hh hb hn _ ih =>
    have hlt := header_body_lt hh hb
    obtain ⟨fuel, rfl⟩ : ∃ k, fuel = k + 1 := ⟨fuel - 1, by omega⟩
    refine objects_step ht hh hb hn hs hf0 acc ?_
    exact ih (bodyEnd_head_ne (body_end hb)) (fits_next hh hb hs) (by omega) (by omega) _

theorem objects_panic {cfg : Cfg} {lo : Counts} {toks x} (h : ObjectsPanic cfg lo toks x)
    (ht : toks.head? ≠ some nl) (hs : Fits lo toks.length) {fuel0 fuel : Nat}
    (hf0 : toks.length < fuel0) (hf : toks.length < fuel) (acc : List (Object F)) :
    ∃ rest, Yields (parse_objects_loop cfg fuel0 fuel (ctrOf lo) acc) toks (.panic x) rest := by
  induction h generalizing fuel acc with
  | @body lo name toks mid rest hh hb =>
    obtain ⟨fuel, rfl⟩ : ∃ k, fuel = k + 1 := ⟨fuel - 1, by omega⟩
    refine ⟨rest, ?_⟩
    rw [parse_objects_loop]
    refine Yields.bind (Yields.peek _) ?_
    have := object_panic (F := F) ht hh hb hs hf0
    cases hh <;> exact Yields.bind_panic this
  | @bare lo name items toks mid rest hh hb hn =>
    obtain ⟨fuel, rfl⟩ : ∃ k, fuel = k + 1 := ⟨fuel - 1, by omega⟩
    refine ⟨rest, ?_⟩
    rw [parse_objects_loop]
    refine Yields.bind (Yields.peek _) ?_
    have := object_bare (F := F) ht hh hb hn hs hf0
    cases hh <;> exact Yields.bind_panic this
  | @later lo name items toks mid rest x hh hb hn _ ih =>
    have hlt := header_body_lt hh hb
    obtain ⟨fuel, rfl⟩ : ∃ k, fuel = k + 1 := ⟨fuel - 1, by omega⟩
    obtain ⟨rest', h'⟩ := ih (bodyEnd_head_ne (body_end hb)) (fits_next hh hb hs) (by omega) (fuel := fuel)
      (by omega) (acc ++ [objMeaning lo ⟨name, items⟩])
    exact ⟨rest', objects_step ht hh hb hn hs hf0 acc h'⟩

theorem objects_total (cfg : Cfg) (lo : Counts) (toks : List Tok) :
    (∃ objs, Objects cfg lo objs toks) ∨ (∃ k m rest, ObjectsErr cfg lo toks k m rest) ∨
      (∃ x, ObjectsPanic cfg lo toks x) := by
  induction hn : toks.length using Nat.strongRecOn generalizing lo toks with
  | ind n ih =>
    cases toks with
    | nil => exact .inl ⟨_, .done⟩
    | cons t tl =>
      rcases header_total t tl with ⟨name, mid, hh⟩ | ⟨_, _, _, hh⟩
      · rcases body_total cfg lo lo mid with ⟨items, rest, hb⟩ | ⟨_, _, _, hb⟩ | ⟨_, hb⟩
        · by_cases hbare : Bare items
          · exact .inr (.inr ⟨_, .bare hh hb hbare⟩)
          · have hlt := header_body_lt hh hb
            rcases ih rest.length (by omega) (lo + countsOf items) rest rfl with
              ⟨_, h⟩ | ⟨_, _, _, h⟩ | ⟨_, h⟩
            · exact .inl ⟨_, .obj hh hb hbare h⟩
            · exact .inr (.inl ⟨_, _, _, .later hh hb hbare h⟩)
            · exact .inr (.inr ⟨_, .later hh hb hbare h⟩)
        · exact .inr (.inl ⟨_, _, _, .body hh hb⟩)
        · exact .inr (.inr ⟨_, .body hh hb⟩)
      · exact .inr (.inl ⟨_, _, _, .header hh⟩)

/-! ## The head of the file -/

theorem endLine_length_le {mid rest : List Tok} (h : EndLine mid rest) : rest.length ≤ mid.length := by
  rcases h with rfl | ⟨rfl, rfl⟩ <;> simp

theorem libs_length_le {toks libs rest} (h : Libs toks libs rest) : rest.length ≤ toks.length := by
  induction h with
  | done => exact Nat.le_refl _
  | blank _ ih => simp only [List.length_cons]; omega
  | line _ h _ ih => have := endLine_length_le h; simp only [List.length_cons, List.length_append]; omega

theorem libs_head_ne {toks libs rest} (h : Libs toks libs rest) : rest.head? ≠ some nl := by
  induction h with
  | done h _ => exact h
  | blank _ ih => exact ih
  | line _ _ _ ih => exact ih

theorem libs_ok {toks libs rest} (h : Libs toks libs rest) {fuel0 fuel : Nat}
    (hf0 : toks.length < fuel0) (hf : (trim toks).length < fuel) (acc : List Bytes) :
    Yields (mtllibs_loop fuel0 fuel acc) (trim toks) (.ok (acc ++ libs)) rest := by
  induction h generalizing fuel acc with
  | @done toks h1 h2 =>
    have e : trim toks = toks := by
      cases toks with
      | nil => rfl
      | cons t tl => exact trim_cons (by simpa using h1) _
    rw [e] at hf ⊢
    obtain ⟨fuel, rfl⟩ : ∃ k, fuel = k + 1 := ⟨fuel - 1, by omega⟩
    rw [mtllibs_loop]
    refine Yields.bind (Yields.peek _) ?_
    simp only [List.append_nil]
    exact Yields.ite_neg h2 (Yields.pure _ _)
  | blank _ ih =>
    rw [trim_nl] at hf ⊢
    simp only [List.length_cons] at hf0
    exact ih (by omega) hf acc
  | @line names mid toks libs rest hn hm h ih =>
    rw [trim_cons (by decide)] at hf ⊢
    simp only [List.length_cons, List.length_append] at hf hf0
    have := endLine_length_le hm
    have := trim_length_le toks
    obtain ⟨fuel, rfl⟩ : ∃ k, fuel = k + 1 := ⟨fuel - 1, by omega⟩
    rw [mtllibs_loop]
    refine Yields.bind (Yields.peek _) ?_
    refine Yields.ite_pos rfl ?_
    refine Yields.bind (a := acc ++ names) (mid := toks) ?_ ?_
    · unfold parse_material_library_line
      exact Yields.bind (expect_tag_cons _ _) (mtllib_loop hn hm (by omega) acc)
    · refine Yields.bind (Yields.skip_zero _ (by omega)) ?_
      have := ih (by omega) (fuel := fuel) (by omega) (acc ++ names)
      simpa using this

theorem libs_total (toks : List Tok) : ∃ libs rest, Libs toks libs rest := by
  induction hn : toks.length using Nat.strongRecOn generalizing toks with
  | ind n ih =>
    cases toks with
    | nil => exact ⟨_, _, .done (by simp) (by simp)⟩
    | cons t tl =>
      simp only [List.length_cons] at hn
      by_cases h1 : t = nl
      · subst h1
        obtain ⟨_, _, h⟩ := ih tl.length (by omega) tl rfl
        exact ⟨_, _, .blank h⟩
      · by_cases h2 : t = b!"mtllib"
        · subst h2
          obtain ⟨names, mid, rest, rfl, h1, h2⟩ := names_total tl
          have := endLine_length_le h2
          simp only [List.length_append] at hn
          obtain ⟨_, _, h⟩ := ih rest.length (by omega) rest rfl
          exact ⟨_, _, .line h1 h2 h⟩
        · exact ⟨_, _, .done (by simpa using h1) (by simpa using h2)⟩

/-! ## Whole files -/

theorem head_trim {toks : List Tok} (h : toks.head? ≠ some nl) : trim toks = toks := by
  cases toks with
  | nil => rfl
  | cons t tl => exact trim_cons (by simpa using h) _

theorem objset_of_objects {cfg : Cfg} {toks libs mid} (hl : Libs toks libs mid) {fuel : Nat}
    (hf : toks.length < fuel) {o : Res ErrorKind (List (Object F))} {rest}
    (h : Yields (parse_objects_loop cfg fuel fuel (ctrOf {}) []) mid o rest) :
    Yields (parse_objects cfg fuel : OP _ (List (Object F))) mid o rest ∧
    Yields (parse_material_libraries fuel) toks (.ok libs) mid := by
  have hle := libs_length_le hl
  have htr := trim_length_le toks
  constructor
  · unfold parse_objects
    refine Yields.bind (Yields.skip_zero _ (by omega)) ?_
    have e : mid.dropWhile (· = nl) = mid := head_trim (libs_head_ne hl)
    rw [e]
    exact h
  · unfold parse_material_libraries
    refine Yields.bind (Yields.skip_zero _ (by omega)) ?_
    have := libs_ok hl hf (fuel := fuel) (by omega) []
    simpa using this

theorem fits_zero {n : Nat} (h : n < 2 ^ 63) : Fits {} n := ⟨by simpa using h, by simpa using h, by simpa using h⟩

theorem file_ok {cfg : Cfg} {toks : List Tok} {file : FileAst} (h : FileOk cfg toks file) {fuel : Nat}
    (hf : toks.length < fuel) (hs : toks.length < 2 ^ 63) :
    Yields (parse_objset cfg fuel : OP _ (ObjectSet F)) toks (.ok (meaning file)) [] := by
  obtain ⟨mid, hl, ho⟩ := h
  have hle := libs_length_le hl
  have h1 := objects_ok (F := F) ho (libs_head_ne hl) ((fits_zero hs).mono hle) (fuel0 := fuel) (fuel := fuel)
    (by omega) (by omega) []
  obtain ⟨h2, h3⟩ := objset_of_objects hl hf h1
  unfold parse_objset
  exact Yields.bind h3 (Yields.bind h2 (Yields.pure _ _))

theorem file_err {cfg : Cfg} {toks : List Tok} {k m rest} (h : FileErr cfg toks k m rest) {fuel : Nat}
    (hf : toks.length < fuel) (hs : toks.length < 2 ^ 63) :
    Yields (parse_objset cfg fuel : OP _ (ObjectSet F)) toks (.err k m) rest := by
  obtain ⟨libs, mid, hl, ho⟩ := h
  have hle := libs_length_le hl
  have h1 := objects_err (F := F) ho (libs_head_ne hl) ((fits_zero hs).mono hle) (fuel0 := fuel) (fuel := fuel)
    (by omega) (by omega) []
  obtain ⟨h2, h3⟩ := objset_of_objects hl hf h1
  unfold parse_objset
  exact Yields.bind h3 (Yields.bind_err h2)

theorem file_panic {cfg : Cfg} {toks : List Tok} {x} (h : FilePanic cfg toks x) {fuel : Nat}
    (hf : toks.length < fuel) (hs : toks.length < 2 ^ 63) :
    ∃ rest, Yields (parse_objset cfg fuel : OP _ (ObjectSet F)) toks (.panic x) rest := by
  obtain ⟨libs, mid, hl, ho⟩ := h
  have hle := libs_length_le hl
  obtain ⟨rest, h1⟩ := objects_panic (F := F) ho (libs_head_ne hl) ((fits_zero hs).mono hle) (fuel0 := fuel)
    (fuel := fuel) (by omega) (by omega) []
  obtain ⟨h2, h3⟩ := objset_of_objects hl hf h1
  refine ⟨rest, ?_⟩
  unfold parse_objset
  exact Yields.bind h3 (Yields.bind_panic h2)

/-- Every token list is a file, an error or a panic. -/
theorem file_total (cfg : Cfg) (toks : List Tok) :
    (∃ file, FileOk cfg toks file) ∨ (∃ k m rest, FileErr cfg toks k m rest) ∨
      (∃ x, FilePanic cfg toks x) := by
  obtain ⟨libs, mid, hl⟩ := libs_total toks
  rcases objects_total cfg {} mid with ⟨objs, h⟩ | ⟨k, m, rest, h⟩ | ⟨x, h⟩
  · exact .inl ⟨⟨libs, objs⟩, mid, hl, h⟩
  · exact .inr (.inl ⟨k, m, rest, libs, mid, hl, h⟩)
  · exact .inr (.inr ⟨x, libs, mid, hl, h⟩)

end Verif.Obj
