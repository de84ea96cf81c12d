import Verif.Proofs.ObjLines

/-!
# The OBJ grammar is unambiguous
-/

namespace Verif.Spec.Obj

open Verif Verif.Obj

theorem numTok_unique {lo hi : Nat} {t : Tok} {k k' : Nat} (h : NumTok lo hi t k) (h' : NumTok lo hi t k') :
    k = k' := by
  have := h.1.symm.trans h'.1
  simp only [Option.some.injEq] at this
  omega

theorem numTok_not_err {cfg : Cfg} {lo hi : Nat} {t : Tok} {k : Nat} (h : NumTok lo hi t k) {e m} :
    ¬ NumErr cfg lo hi t e m := by
  rintro (h' | ⟨k', h', hr, -⟩)
  · rw [h.1] at h'; cases h'
  · rw [h.1] at h'
    simp only [Option.some.injEq] at h'
    have := h.2
    omega

theorem numTok_not_panic {cfg : Cfg} {lo hi : Nat} {t : Tok} {k : Nat} (h : NumTok lo hi t k) :
    ¬ NumPanic cfg hi t := by
  rintro ⟨k', h', -, hk, -⟩
  rw [h.1] at h'
  simp only [Option.some.injEq] at h'
  have := h.2
  omega

theorem pieceOk_unique {lo hi : Nat} {p : Bytes} {o o' : Option Nat} (h : PieceOk lo hi p o)
    (h' : PieceOk lo hi p o') : o = o' := by
  rcases h with ⟨h1, rfl⟩ | ⟨k, h1, h2, rfl⟩ <;> rcases h' with ⟨h1', rfl⟩ | ⟨k', h1', h2', rfl⟩
  · rfl
  · exact absurd h1 h1'
  · exact absurd h1' h1
  · rw [numTok_unique h2 h2']

theorem pieceOk_not_err {cfg : Cfg} {lo hi : Nat} {p : Bytes} {o : Option Nat} (h : PieceOk lo hi p o)
    (hp : p ≠ []) {e m} : ¬ NumErr cfg lo hi p e m := by
  rcases h with ⟨h1, -⟩ | ⟨k, _, h2, -⟩
  · exact absurd h1 hp
  · exact numTok_not_err h2

theorem refTok_unique {lo hi : Counts} {t : Tok} {r r' : Ref} (h : RefTok lo hi t r)
    (h' : RefTok lo hi t r') : r = r' := by
  have h1 := pieceOk_unique h.v h'.v
  have h2 := pieceOk_unique h.vt h'.vt
  have h3 := pieceOk_unique h.vn h'.vn
  cases r; cases r'
  simp_all

theorem refTok_not_err {cfg : Cfg} {lo hi : Counts} {t : Tok} {r : Ref} (h : RefTok lo hi t r) {e m} :
    ¬ RefErr cfg lo hi t e m := by
  intro h'
  cases h' with
  | v hp he => exact pieceOk_not_err h.v hp he
  | vt _ hp he => exact pieceOk_not_err h.vt hp he
  | vn _ _ hp he => exact pieceOk_not_err h.vn hp he
  | shape h1 _ _ hs =>
    have := pieceOk_unique h1 h.v
    have := h.few
    rcases hs with hs | hs
    · simp_all
    · omega

/-- The longest run of tokens with a property, with what they denote. -/
theorem run_unique {R : Tok → β → Prop} (hR : ∀ t b b', R t b → R t b' → b = b') {ts ts' : List Tok}
    {bs bs' : List β} {mid mid' : List Tok} (h : List.Forall₂ R ts bs) (h' : List.Forall₂ R ts' bs')
    (hm : ∀ t ∈ mid.head?, ∀ b, ¬ R t b) (hm' : ∀ t ∈ mid'.head?, ∀ b, ¬ R t b)
    (e : ts ++ mid = ts' ++ mid') : bs = bs' ∧ mid = mid' := by
  induction h generalizing ts' bs' with
  | nil =>
    cases h' with
    | nil => exact ⟨rfl, e⟩
    | cons h1 h2 =>
      simp only [List.nil_append, List.cons_append] at e
      subst e
      exact absurd h1 (hm _ (by simp) _)
  | cons h1 h2 ih =>
    cases h' with
    | nil =>
      simp only [List.nil_append, List.cons_append] at e
      subst e
      exact absurd h1 (hm' _ (by simp) _)
    | cons h1' h2' =>
      simp only [List.cons_append, List.cons.injEq] at e
      obtain ⟨rfl, e⟩ := e
      obtain ⟨rfl, rfl⟩ := ih h2' e
      exact ⟨by rw [hR _ _ _ h1 h1'], rfl⟩

theorem endLine_unique {mid rest rest' : List Tok} (h : EndLine mid rest) (h' : EndLine mid rest') :
    rest = rest' := by
  rcases h with rfl | ⟨rfl, rfl⟩ <;> rcases h' with h | ⟨h, rfl⟩ <;> simp_all

theorem endLine_head {mid rest : List Tok} (h : EndLine mid rest) : ∀ t ∈ mid.head?, t = nl := by
  rcases h with rfl | ⟨rfl, rfl⟩
  · intro t ht
    simpa using ht.symm
  · simp

theorem stop_unique {cfg : Cfg} {lo hi : Counts} {mid rest rest' : List Tok} (h : Stop cfg lo hi mid rest)
    (h' : Stop cfg lo hi mid rest') : rest = rest' := by
  rcases h with ⟨_, _, _, rfl, _⟩ | ⟨rfl, rfl⟩ <;> rcases h' with ⟨_, _, _, h, _⟩ | ⟨h, rfl⟩ <;> simp_all

theorem stop_head {cfg : Cfg} {lo hi : Counts} {mid rest : List Tok} (h : Stop cfg lo hi mid rest) :
    ∀ t ∈ mid.head?, ∀ r, ¬ RefTok lo hi t r := by
  rcases h with ⟨t, k, m, rfl, ht⟩ | ⟨rfl, rfl⟩
  · intro t' ht' r hr
    simp only [List.head?_cons, Option.mem_def, Option.some.injEq] at ht'
    subst ht'
    exact refTok_not_err hr ht
  · simp

theorem names_unique {names names' mid mid' rest rest' : List Tok} (h1 : nl ∉ names) (h1' : nl ∉ names')
    (h2 : EndLine mid rest) (h2' : EndLine mid' rest') (e : names ++ mid = names' ++ mid') :
    names = names' ∧ rest = rest' := by
  have key : ∀ names : List Tok, nl ∉ names → List.Forall₂ (fun t b : Tok => t ≠ nl ∧ t = b) names names := by
    intro names h
    induction names with
    | nil => exact .nil
    | cons a names ih =>
      simp only [List.mem_cons, not_or] at h
      exact .cons ⟨fun hc => h.1 hc.symm, rfl⟩ (ih h.2)
  obtain ⟨rfl, rfl⟩ := run_unique (R := fun t b : Tok => t ≠ nl ∧ t = b)
    (fun t b b' h h' => h.2.symm.trans h'.2) (key _ h1) (key _ h1')
    (fun t ht b hb => hb.1 (endLine_head h2 t ht)) (fun t ht b hb => hb.1 (endLine_head h2' t ht)) e
  exact ⟨rfl, endLine_unique h2 h2'⟩

theorem smoothTok_unique {t : Tok} {n n' : Nat} (h : SmoothTok t n) (h' : SmoothTok t n') : n = n' := by
  rcases h with ⟨h1, rfl⟩ | ⟨h1, h2⟩ <;> rcases h' with ⟨h1', rfl⟩ | ⟨h1', h2'⟩ <;> simp_all

theorem noFloat_cons {t : Tok} {rest : List Tok} (h : NoFloat (t :: rest)) : isFloat t = false :=
  h t (by simp)

/-- A statement can be read in one way only. -/
theorem stmt_unique {cfg : Cfg} {lo hi : Counts} {it it' toks rest rest'} (h : Stmt cfg lo hi it toks rest)
    (h' : Stmt cfg lo hi it' toks rest') : it = it' ∧ rest = rest' := by
  generalize e : toks = toks' at h'
  cases h with
  | v3 _ _ _ hn =>
    cases h' <;> simp at e
    · simp_all
    · obtain ⟨rfl, rfl, rfl, rfl⟩ := e
      have := noFloat_cons hn
      simp_all
  | v4 _ _ _ hw =>
    cases h' <;> simp at e
    · rename_i hn
      obtain ⟨rfl, rfl, rfl, rfl⟩ := e
      have := noFloat_cons hn
      simp_all
    · simp_all
  | vt1 _ hn =>
    cases h' <;> simp at e
    · simp_all
    · obtain ⟨rfl, rfl⟩ := e
      have := noFloat_cons hn
      simp_all
    · obtain ⟨rfl, rfl⟩ := e
      have := noFloat_cons hn
      simp_all
  | vt2 _ _ hn =>
    cases h' <;> simp at e
    · rename_i hn'
      obtain ⟨rfl, rfl⟩ := e
      have := noFloat_cons hn'
      simp_all
    · simp_all
    · obtain ⟨rfl, rfl, rfl⟩ := e
      have := noFloat_cons hn
      simp_all
  | vt3 _ _ _ =>
    cases h' <;> simp at e
    · rename_i hn'
      obtain ⟨rfl, rfl⟩ := e
      have := noFloat_cons hn'
      simp_all
    · rename_i hn'
      obtain ⟨rfl, rfl, rfl⟩ := e
      have := noFloat_cons hn'
      simp_all
    · simp_all
  | vn => cases h' <;> simp at e; simp_all
  | g h1 h2 =>
    cases h' <;> simp at e
    rename_i h1' h2'
    obtain ⟨rfl, rfl⟩ := names_unique h1 h1' h2 h2' e
    exact ⟨rfl, rfl⟩
  | s h1 =>
    cases h' <;> simp at e
    rename_i h1'
    obtain ⟨rfl, rfl⟩ := e
    exact ⟨by rw [smoothTok_unique h1 h1'], rfl⟩
  | usemtl =>
    cases h' <;> simp at e
    simp_all
  | p _ h1 h2 =>
    cases h' <;> simp at e
    rename_i h1' h2'
    have nn : ∀ {mid rest}, EndLine mid rest → ∀ t ∈ mid.head?, ∀ b, ¬ NumTok lo.v hi.v t b :=
      fun he t ht b hb => numTok_ne_nl hb (endLine_head he t ht)
    obtain ⟨rfl, rfl⟩ := run_unique (R := NumTok lo.v hi.v) (fun _ _ _ => numTok_unique) h1 h1' (nn h2) (nn h2') e
    exact ⟨rfl, endLine_unique h2 h2'⟩
  | l _ h1 _ h2 =>
    cases h' <;> simp at e
    rename_i h1' _ h2'
    obtain ⟨rfl, rfl⟩ := run_unique (R := RefTok lo hi) (fun _ _ _ => refTok_unique) h1 h1' (stop_head h2)
      (stop_head h2') e
    exact ⟨rfl, stop_unique h2 h2'⟩
  | f _ h1 _ h2 =>
    cases h' <;> simp at e
    rename_i h1' _ h2'
    obtain ⟨rfl, rfl⟩ := run_unique (R := RefTok lo hi) (fun _ _ _ => refTok_unique) h1 h1' (stop_head h2)
      (stop_head h2') e
    exact ⟨rfl, stop_unique h2 h2'⟩

theorem bodyEnd_not_stmt {cfg : Cfg} {lo hi : Counts} {it toks rest} (h : BodyEnd toks) :
    ¬ Stmt cfg lo hi it toks rest := by
  intro hs
  obtain ⟨t, tl, rfl, h1, h2, h3⟩ := Stmt.head hs
  rcases h with h | h
  · cases h
  · simp only [List.head?_cons, Option.some.injEq] at h
    exact h2 h

theorem bodyEnd_not_nl {toks : List Tok} (h : BodyEnd (nl :: toks)) : False := by
  rcases h with h | h
  · cases h
  · simp [nl] at h

theorem stmt_not_nl {cfg : Cfg} {lo hi : Counts} {it toks rest} :
    ¬ Stmt cfg lo hi it (nl :: toks) rest := by
  intro hs
  obtain ⟨t, tl, e, h1, h2, h3⟩ := Stmt.head hs
  simp only [List.cons.injEq] at e
  exact h1 e.1.symm

theorem body_unique {cfg : Cfg} {lo hi : Counts} {items items' toks rest rest'}
    (h : Body cfg lo hi items toks rest) (h' : Body cfg lo hi items' toks rest') :
    items = items' ∧ rest = rest' := by
  induction h generalizing items' with
  | done h =>
    cases h' with
    | done => exact ⟨rfl, rfl⟩
    | blank => exact absurd h bodyEnd_not_nl
    | stmt hs => exact absurd hs (bodyEnd_not_stmt h)
  | blank _ ih =>
    cases h' with
    | done h => exact absurd h bodyEnd_not_nl
    | blank h' => exact ih h'
    | stmt hs => exact absurd hs stmt_not_nl
  | stmt hs _ ih =>
    cases h' with
    | done h => exact absurd hs (bodyEnd_not_stmt h)
    | blank => exact absurd hs stmt_not_nl
    | stmt hs' h' =>
      obtain ⟨rfl, rfl⟩ := stmt_unique hs hs'
      obtain ⟨rfl, rfl⟩ := ih h'
      exact ⟨rfl, rfl⟩

theorem header_unique {toks name name' mid mid'} (h : Header toks name mid) (h' : Header toks name' mid') :
    name = name' ∧ mid = mid' := by
  cases h with
  | implicit h =>
    cases h' with
    | implicit => exact ⟨rfl, rfl⟩
    | named => exact absurd rfl h
  | named =>
    cases h' with
    | implicit h => exact absurd rfl h
    | named => exact ⟨rfl, rfl⟩

theorem objects_unique {cfg : Cfg} {lo : Counts} {objs objs' toks} (h : Objects cfg lo objs toks)
    (h' : Objects cfg lo objs' toks) : objs = objs' := by
  induction h generalizing objs' with
  | done =>
    cases h' with
    | done => rfl
    | obj h => cases h
  | obj h1 h2 _ _ ih =>
    cases h' with
    | done => cases h1
    | obj h1' h2' _ h' =>
      obtain ⟨rfl, rfl⟩ := header_unique h1 h1'
      obtain ⟨rfl, rfl⟩ := body_unique h2 h2'
      rw [ih h']

theorem libs_unique {toks libs libs' rest rest'} (h : Libs toks libs rest) (h' : Libs toks libs' rest') :
    libs = libs' ∧ rest = rest' := by
  induction h generalizing libs' with
  | done h1 h2 =>
    cases h' with
    | done => exact ⟨rfl, rfl⟩
    | blank => exact absurd rfl h1
    | line => exact absurd rfl h2
  | blank _ ih =>
    generalize e : (nl :: _ : List Tok) = toks' at h'
    cases h' with
    | done h => subst e; exact absurd rfl h
    | blank h' =>
      simp only [List.cons.injEq, true_and] at e
      subst e
      exact ih h'
    | line =>
      simp only [List.cons.injEq] at e
      exact absurd e.1 (by decide)
  | line h1 h2 _ ih =>
    generalize e : (b!"mtllib" :: _ : List Tok) = toks' at h'
    cases h' with
    | done _ h => subst e; exact absurd rfl h
    | blank h' =>
      simp only [List.cons.injEq] at e
      exact absurd e.1 (by decide)
    | line h1' h2' h' =>
      simp only [List.cons.injEq, true_and] at e
      obtain ⟨rfl, rfl⟩ := names_unique h1 h1' h2 h2' e
      obtain ⟨rfl, rfl⟩ := ih h'
      exact ⟨rfl, rfl⟩

/-- A file can be read in one way only. -/
theorem file_unique {cfg : Cfg} {toks} {file file' : FileAst} (h : FileOk cfg toks file)
    (h' : FileOk cfg toks file') : file = file' := by
  obtain ⟨rest, hl, ho⟩ := h
  obtain ⟨rest', hl', ho'⟩ := h'
  obtain ⟨e, rfl⟩ := libs_unique hl hl'
  have e' := objects_unique ho ho'
  cases file; cases file'
  simp_all

end Verif.Spec.Obj
