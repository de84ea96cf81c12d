import Verif.Spec.Doc
import Verif.Proofs.Render
import Verif.Props.Language

/-!
# Texts of the documented grammar
-/

namespace Verif.Spec.Doc

open Verif Verif.Props

/-! ## Lexical elements -/

theorem digits_span {a : Bytes} (h : ∀ c ∈ a, Digit c) (r : Bytes) (hr : ∀ c ∈ r.head?, isDigit c = false) :
    (a ++ r).takeWhile isDigit = a ∧ (a ++ r).dropWhile isDigit = r := by
  have ha : ∀ c ∈ a, isDigit c = true := by
    intro c hc
    have := h c hc
    simpa [isDigit, Digit, UInt8.le_iff_toNat_le] using this
  have er : r.takeWhile isDigit = [] ∧ r.dropWhile isDigit = r := by
    cases r with
    | nil => exact ⟨rfl, rfl⟩
    | cons c r => simp [hr c (by simp)]
  rw [List.takeWhile_append_of_pos ha, List.dropWhile_append_of_pos ha, er.1, er.2, List.append_nil]
  exact ⟨rfl, rfl⟩

theorem digits_isFloatNumber {a b : Bytes} (ha : Digits a) (hb : Digits b) :
    isFloatNumber (a ++ 46 :: b) = true := by
  obtain ⟨e1, e2⟩ := digits_span ha.2 (46 :: b) (by simp [isDigit])
  obtain ⟨e3, e4⟩ := digits_span hb.2 [] (by simp)
  rw [List.append_nil] at e3 e4
  have hne := ha.1
  simp only [isFloatNumber, e1, e2, e3, e4]
  cases a with
  | nil => exact absurd rfl hne
  | cons c a => simp

theorem digit_dropSign {a : Bytes} (h : Digits a) (r : Bytes) : dropSign (a ++ r) = a ++ r := by
  obtain ⟨hne, hd⟩ := h
  cases a with
  | nil => exact absurd rfl hne
  | cons c a =>
    have hc := hd c (by simp)
    unfold dropSign
    split
    · rename_i e
      simp only [List.cons_append, List.cons.injEq] at e
      obtain ⟨rfl, -⟩ := e
      exact absurd hc (by unfold Digit; decide)
    · rename_i e
      simp only [List.cons_append, List.cons.injEq] at e
      obtain ⟨rfl, -⟩ := e
      exact absurd hc (by unfold Digit; decide)
    · rfl

theorem float_isFloat {t : Bytes} (h : Float t) : isFloat t = true := by
  obtain ⟨n, b, rfl, hn, hb⟩ := h
  have key : ∃ a, Digits a ∧ dropSign (n ++ [46] ++ b) = a ++ 46 :: b := by
    rcases hn with hn | ⟨a, rfl, ha⟩
    · exact ⟨n, hn, by rw [List.append_assoc, digit_dropSign hn]; rfl⟩
    · exact ⟨a, ha, by simp [dropSign]⟩
  obtain ⟨a, ha, e⟩ := key
  have : isFloat (n ++ [46] ++ b) = true := by
    rw [isFloat, e, digits_isFloatNumber ha hb]
    rfl
  exact this

theorem decimal_bytes {t : Bytes} {n : Nat} (h : Decimal t n) : t ≠ [] ∧ ∀ c ∈ t, c ≠ 47 := by
  refine ⟨h.1, ?_⟩
  rintro c hc rfl
  exact absurd (h.2.1 _ hc) (by decide)

theorem index_numTok {lo hi : Nat} {t : Bytes} {k : Nat} (h : Index lo hi t k) (hs : hi < 2 ^ 63) :
    Obj.NumTok lo hi t k := by
  obtain ⟨hd, h1, h2⟩ := h
  exact ⟨parseIsize_iff.mpr ⟨t, k, hd, .inl ⟨.inl rfl, rfl⟩, by omega, by omega⟩, h1, h2⟩

theorem index_piece {lo hi : Nat} {t : Bytes} {k : Nat} (h : Index lo hi t k) (hs : hi < 2 ^ 63) :
    Obj.PieceOk lo hi t (some k) :=
  .inr ⟨k, h.1.1, index_numTok h hs, rfl⟩

theorem reference_refTok {lo hi : Obj.Counts} {t : Bytes} {r : Obj.Ref} (h : Reference lo hi t r)
    (hs : Verif.Obj.Small hi) : Obj.RefTok lo hi t r := by
  have e0 : ∀ (a : Bytes) (n : Nat), Decimal a n → splitByte 47 a = [a] := fun a n h => splitByte_none _ (decimal_bytes h).2
  have e1 : ∀ (a : Bytes) (n : Nat) (x : Bytes), Decimal a n → splitByte 47 (a ++ 47 :: x) = a :: splitByte 47 x :=
    fun a n x h => splitByte_cons _ _ (decimal_bytes h).2
  have e2 : ∀ x : Bytes, splitByte 47 (47 :: x) = [] :: splitByte 47 x := fun x => by simp [splitByte]
  cases h with
  | v ha =>
    have e : Obj.pieces t = [t] := e0 _ _ ha.1
    refine ⟨by rw [e]; simp, ?_, ?_, ?_⟩ <;> unfold Obj.piece <;> rw [e]
    · exact index_piece ha hs.1
    · exact .inl ⟨rfl, rfl⟩
    · exact .inl ⟨rfl, rfl⟩
  | @vn a c v n ha hc =>
    have e : Obj.pieces (a ++ [47, 47] ++ c) = [a, [], c] := by
      simp [Obj.pieces, e0 _ _ hc.1, e1 _ _ _ ha.1, e2]
    refine ⟨?_, ?_, ?_, ?_⟩
    · show (Obj.pieces (a ++ [47, 47] ++ c)).length ≤ 3
      rw [e]; simp
    all_goals (unfold Obj.piece; rw [e])
    · exact index_piece ha hs.1
    · exact .inl ⟨rfl, rfl⟩
    · exact index_piece hc hs.2.2
  | @vt a b v t ha hb =>
    have e : Obj.pieces (a ++ [47] ++ b) = [a, b] := by
      simp [Obj.pieces, e0 _ _ hb.1, e1 _ _ _ ha.1]
    refine ⟨?_, ?_, ?_, ?_⟩
    · show (Obj.pieces (a ++ [47] ++ b)).length ≤ 3
      rw [e]; simp
    all_goals (unfold Obj.piece; rw [e])
    · exact index_piece ha hs.1
    · exact index_piece hb hs.2.1
    · exact .inl ⟨rfl, rfl⟩
  | @vtn a b c v t n ha hb hc =>
    have e : Obj.pieces (a ++ [47] ++ b ++ [47] ++ c) = [a, b, c] := by
      simp [Obj.pieces, e0 _ _ hc.1, e1 _ _ _ ha.1, e1 _ _ _ hb.1]
    refine ⟨?_, ?_, ?_, ?_⟩
    · show (Obj.pieces (a ++ [47] ++ b ++ [47] ++ c)).length ≤ 3
      rw [e]; simp
    all_goals (unfold Obj.piece; rw [e])
    · exact index_piece ha hs.1
    · exact index_piece hb hs.2.1
    · exact index_piece hc hs.2.2

/-! ## Lines -/

theorem tokenLines_ne (toks : List Tok) : tokenLines toks ≠ [] := by
  cases toks with
  | nil => simp [tokenLines]
  | cons t ts =>
    rw [tokenLines]
    split
    · simp
    · split <;> simp

theorem tokenLines_uncons {toks : List Tok} {l ls} (h : tokenLines toks = l :: ls) :
    nl ∉ l ∧ ((ls = [] ∧ toks = l) ∨ ∃ toks', toks = l ++ nl :: toks' ∧ tokenLines toks' = ls) := by
  induction toks generalizing l ls with
  | nil =>
    simp only [tokenLines, List.cons.injEq] at h
    obtain ⟨rfl, rfl⟩ := h
    exact ⟨by simp, .inl ⟨rfl, rfl⟩⟩
  | cons t ts ih =>
    rw [tokenLines] at h
    by_cases ht : t = nl
    · rw [if_pos ht] at h
      simp only [List.cons.injEq] at h
      obtain ⟨rfl, rfl⟩ := h
      subst ht
      exact ⟨by simp, .inr ⟨ts, rfl, rfl⟩⟩
    · rw [if_neg ht] at h
      cases e : tokenLines ts with
      | nil => exact absurd e (tokenLines_ne ts)
      | cons l' ls' =>
        rw [e] at h
        simp only [List.cons.injEq] at h
        obtain ⟨rfl, rfl⟩ := h
        obtain ⟨hn, h⟩ := ih e
        refine ⟨by simp [hn, Ne.symm ht], ?_⟩
        rcases h with ⟨h1, h2⟩ | ⟨toks', h1, h2⟩
        · exact .inl ⟨h1, by rw [h2]⟩
        · exact .inr ⟨toks', by rw [h1]; rfl, h2⟩

/-- The lines `ls` are those of `toks`, none if there is nothing. -/
def LinesOf (toks : List Tok) (ls : List (List Tok)) : Prop := (ls = [] ∧ toks = []) ∨ tokenLines toks = ls

theorem LinesOf.uncons {toks : List Tok} {l ls} (h : LinesOf toks (l :: ls)) :
    nl ∉ l ∧ ((ls = [] ∧ toks = l) ∨ ∃ toks', toks = l ++ nl :: toks' ∧ LinesOf toks' ls) := by
  rcases h with ⟨h, -⟩ | h
  · cases h
  · obtain ⟨h1, h | ⟨toks', h2, h3⟩⟩ := tokenLines_uncons h
    · exact ⟨h1, .inl h⟩
    · exact ⟨h1, .inr ⟨toks', h2, .inr h3⟩⟩

theorem LinesOf.nil {toks : List Tok} (h : LinesOf toks []) : toks = [] := by
  rcases h with ⟨-, h⟩ | h
  · exact h
  · exact absurd h (tokenLines_ne toks)

/-! ## OBJ files -/

section
open Verif.Spec.Obj
open Verif.Obj (Small Fits stop_nl fits_next fits_zero)

theorem forall₂_imp {α β : Type} {R S : α → β → Prop} (h : ∀ a b, R a b → S a b) {l : List α} {m : List β}
    (hl : List.Forall₂ R l m) : List.Forall₂ S l m := by
  induction hl with
  | nil => exact .nil
  | cons h1 _ ih => exact .cons (h _ _ h1) ih

theorem objLine_stmt (cfg : Verif.Obj.Cfg) {lo hi : Counts} {l : List Bytes} {it : Item} (h : ObjLine lo hi l it)
    (hs : Small hi) (hl : nl ∉ l) {mid : List Tok} (hm : mid = [] ∨ ∃ r, mid = nl :: r) :
    ∃ m', Stmt cfg lo hi it (l ++ mid) m' ∧ (m' = mid ∨ mid = nl :: m') := by
  have hnf : NoFloat mid := by
    rcases hm with rfl | ⟨r, rfl⟩
    · intro t ht; cases ht
    · intro t ht
      obtain rfl := Option.some.inj ht
      decide
  have hend : ∃ m', EndLine mid m' ∧ Stop cfg lo hi mid m' ∧ (m' = mid ∨ mid = nl :: m') := by
    rcases hm with rfl | ⟨r, rfl⟩
    · exact ⟨[], .inr ⟨rfl, rfl⟩, .inr ⟨rfl, rfl⟩, .inl rfl⟩
    · exact ⟨r, .inl rfl, stop_nl .., .inr rfl⟩
  cases h with
  | v3 hx hy hz =>
    exact ⟨mid, .v3 (float_isFloat hx) (float_isFloat hy) (float_isFloat hz) hnf, .inl rfl⟩
  | v4 hx hy hz hw =>
    exact ⟨mid, .v4 (float_isFloat hx) (float_isFloat hy) (float_isFloat hz) (float_isFloat hw), .inl rfl⟩
  | vt1 hx => exact ⟨mid, .vt1 (float_isFloat hx) hnf, .inl rfl⟩
  | vt2 hx hy => exact ⟨mid, .vt2 (float_isFloat hx) (float_isFloat hy) hnf, .inl rfl⟩
  | vt3 hx hy hz => exact ⟨mid, .vt3 (float_isFloat hx) (float_isFloat hy) (float_isFloat hz), .inl rfl⟩
  | vn hx hy hz => exact ⟨mid, .vn (float_isFloat hx) (float_isFloat hy) (float_isFloat hz), .inl rfl⟩
  | @p ts is hne hf =>
    obtain ⟨m', he, -, hm'⟩ := hend
    refine ⟨m', .p ?_ (forall₂_imp (fun a b h => index_numTok h hs.1) hf) he, hm'⟩
    rintro rfl
    cases hf
    exact hne rfl
  | @l ts refs h2 hf hu =>
    obtain ⟨m', -, he, hm'⟩ := hend
    exact ⟨m', .l (by rw [← hf.length_eq]; exact h2) (forall₂_imp (fun a b h => reference_refTok h hs) hf) hu he, hm'⟩
  | @f ts refs h2 hf hu =>
    obtain ⟨m', -, he, hm'⟩ := hend
    exact ⟨m', .f (by rw [← hf.length_eq]; exact h2) (forall₂_imp (fun a b h => reference_refTok h hs) hf) hu he, hm'⟩
  | @g names =>
    obtain ⟨m', he, -, hm'⟩ := hend
    exact ⟨m', .g (fun h => hl (by simp [h])) he, hm'⟩
  | off => exact ⟨mid, .s (.inl ⟨rfl, rfl⟩), .inl rfl⟩
  | @s t n hd hn =>
    refine ⟨mid, .s (.inr ⟨?_, parseUsize_iff.mpr ⟨t, .inl rfl, hd, by omega⟩⟩), .inl rfl⟩
    rintro rfl
    exact absurd (hd.2.1 111 (by simp)) (by decide)
  | usemtl => exact ⟨mid, .usemtl, .inl rfl⟩

theorem objLine_cons {lo hi : Counts} {l : List Bytes} {it : Item} (h : ObjLine lo hi l it) :
    ∃ k ws, l = k :: ws ∧ k ≠ b!"o" ∧ k ≠ nl ∧ k ≠ b!"mtllib" := by
  cases h <;> exact ⟨_, _, rfl, by decide, by decide, by decide⟩

/-- Nothing, or the line of an `o` statement. -/
def NamedHead (ls : List (List Bytes)) : Prop := ls = [] ∨ ∃ name r, ls = [b!"o", name] :: r

theorem named_head {lo : Counts} {ls objs} (h : NamedObjects lo ls objs) : NamedHead ls := by
  cases h with
  | done => exact .inl rfl
  | obj => exact .inr ⟨_, _, rfl⟩

theorem named_bodyEnd {toks : List Tok} {ls} (h : LinesOf toks ls) (hn : NamedHead ls) : BodyEnd toks := by
  rcases hn with rfl | ⟨name, r, rfl⟩
  · exact .inl h.nil
  · obtain ⟨-, ⟨-, rfl⟩ | ⟨toks', rfl, -⟩⟩ := h.uncons <;> exact .inr rfl

theorem body_lines (cfg : Verif.Obj.Cfg) {lo hi : Counts} {body : List (List Bytes)} {items : List Item}
    (h : ObjBody lo hi body items) {toks : List Tok} {rest : List (List Bytes)}
    (ht : LinesOf toks (body ++ rest)) (hr : NamedHead rest) (hf : Fits hi toks.length) :
    ∃ toks', Body cfg lo hi items toks toks' ∧ LinesOf toks' rest := by
  induction h generalizing toks with
  | done => exact ⟨toks, .done (named_bodyEnd ht hr), ht⟩
  | @blank hi ls items _ ih =>
    obtain ⟨-, ⟨e, rfl⟩ | ⟨toks', rfl, ht'⟩⟩ := LinesOf.uncons ht
    · obtain ⟨rfl, rfl⟩ := List.append_eq_nil_iff.mp e
      exact ih (.inl ⟨rfl, rfl⟩) hf
    · obtain ⟨toks'', hb, hl⟩ := ih ht' (hf.mono (by simp))
      exact ⟨toks'', .blank hb, hl⟩
  | @line hi l it ls items hline hbody ih =>
    obtain ⟨hn, ⟨e, rfl⟩ | ⟨toks', rfl, ht'⟩⟩ := LinesOf.uncons ht
    · obtain ⟨rfl, rfl⟩ := List.append_eq_nil_iff.mp e
      obtain ⟨m', hst, hm'⟩ := objLine_stmt cfg hline hf.small hn (mid := []) (.inl rfl)
      rw [List.append_nil] at hst
      obtain rfl : m' = [] := by
        rcases hm' with h | h
        · exact h
        · cases h
      obtain ⟨k, ws, rfl, -⟩ := objLine_cons hline
      obtain ⟨toks'', hb, hl⟩ := ih (toks := []) (.inl ⟨rfl, rfl⟩) (hf.step (by simp) it)
      exact ⟨toks'', .stmt hst hb, hl⟩
    · obtain ⟨m', hst, hm'⟩ := objLine_stmt cfg hline hf.small hn (mid := nl :: toks') (.inr ⟨_, rfl⟩)
      obtain ⟨toks'', hb, hl⟩ := ih ht' (hf.step (by simp; omega) it)
      refine ⟨toks'', .stmt hst ?_, hl⟩
      rcases hm' with rfl | h
      · exact .blank hb
      · simp only [List.cons.injEq, true_and] at h
        rw [← h]; exact hb

theorem not_bare {items : List Item} (h : ∃ it ∈ items, it.isElement = true ∨ it.isUsemtl = true) : ¬ Bare items := by
  obtain ⟨it, hm, h⟩ := h
  intro hb
  obtain ⟨h1, h2⟩ := hb it hm
  rcases h with h | h
  · rw [h1] at h; cases h
  · rw [h2] at h; cases h

theorem named_lines (cfg : Verif.Obj.Cfg) {lo : Counts} {ls : List (List Bytes)} {objs : List ObjAst}
    (h : NamedObjects lo ls objs) {toks : List Tok} (ht : LinesOf toks ls) (hf : Fits lo toks.length) :
    Objects cfg lo objs toks := by
  induction h generalizing toks with
  | done =>
    obtain rfl := ht.nil
    exact .done
  | @obj lo name body items rest objs hbody hne hrest ih =>
    obtain ⟨hn, ⟨e, rfl⟩ | ⟨toks', rfl, ht'⟩⟩ := LinesOf.uncons ht
    · obtain ⟨rfl, rfl⟩ := List.append_eq_nil_iff.mp e
      cases hbody
      obtain ⟨it, hm, -⟩ := hne
      cases hm
    · obtain ⟨toks'', hb, hl⟩ := body_lines cfg hbody ht' (named_head hrest) (hf.mono (by simp; omega))
      have hh : Header ([b!"o", name] ++ nl :: toks') name toks' := .named
      exact .obj hh hb (not_bare hne) (ih hl (fits_next hh hb hf))

theorem file_lines (cfg : Verif.Obj.Cfg) {ls : List (List Bytes)} {file : FileAst}
    (h : ObjFile ls file) {toks : List Tok} (ht : LinesOf toks ls) (hf : toks.length < 2 ^ 63) :
    FileOk cfg toks file := by
  induction h generalizing toks with
  | blank _ ih =>
    obtain ⟨-, ⟨rfl, rfl⟩ | ⟨toks', rfl, ht'⟩⟩ := LinesOf.uncons ht
    · exact ih (.inl ⟨rfl, rfl⟩) hf
    · obtain ⟨rest, h1, h2⟩ := ih ht' (by simp at hf; omega)
      exact ⟨rest, .blank h1, h2⟩
  | @mtllib names ls libs objs _ ih =>
    obtain ⟨hn, ⟨rfl, rfl⟩ | ⟨toks', rfl, ht'⟩⟩ := LinesOf.uncons ht
    · obtain ⟨rest, h1, h2⟩ := ih (toks := []) (.inl ⟨rfl, rfl⟩) (by simp)
      refine ⟨rest, ?_, h2⟩
      have := Libs.line (names := names) (mid := []) (fun h => hn (by simp [h])) (.inr ⟨rfl, rfl⟩) h1
      rwa [List.append_nil] at this
    · obtain ⟨rest, h1, h2⟩ := ih ht' (by simp at hf; omega)
      exact ⟨rest, .line (names := names) (mid := nl :: toks') (fun h => hn (by simp [h])) (.inl rfl) h1, h2⟩
  | @objects ls objs ho =>
    cases ho with
    | named h =>
      refine ⟨toks, .done ?_ ?_, named_lines cfg h ht (fits_zero hf)⟩
      · rcases named_bodyEnd ht (named_head h) with rfl | e
        · simp
        · rw [e]; decide
      · rcases named_bodyEnd ht (named_head h) with rfl | e
        · simp
        · rw [e]; decide
    | @body body items rest objs hb hne hrest =>
      -- blank lines before the first statement belong to the head
      have key : ∀ (hi : Counts) (body : List (List Bytes)) (its : List Item), ObjBody {} hi body its →
          hi = {} → its = items → ∀ toks : List Tok, LinesOf toks (body ++ rest) → toks.length < 2 ^ 63 →
          FileOk cfg toks ⟨[], ⟨[], items⟩ :: objs⟩ := by
        intro hi body its hb
        induction hb with
        | done =>
          intro _ e
          subst e
          obtain ⟨it, hm, -⟩ := hne
          cases hm
        | blank _ ih =>
          intro e1 e2 toks ht hf
          obtain ⟨-, ⟨e, rfl⟩ | ⟨toks', rfl, ht'⟩⟩ := LinesOf.uncons ht
          · exact ih e1 e2 [] (.inl ⟨e, rfl⟩) hf
          · obtain ⟨r, h1, h2⟩ := ih e1 e2 toks' ht' (by simp at hf; omega)
            exact ⟨r, .blank h1, h2⟩
        | @line hi l it ls its hline hbody ih =>
          intro e1 e2 toks ht hf
          subst e1 e2
          obtain ⟨k, ws, rfl, hk1, hk2, hk3⟩ := objLine_cons hline
          have htk : ∃ ts, toks = k :: ts := by
            obtain ⟨-, ⟨-, rfl⟩ | ⟨toks', rfl, -⟩⟩ := LinesOf.uncons ht
            · exact ⟨_, rfl⟩
            · exact ⟨_, rfl⟩
          obtain ⟨ts, rfl⟩ := htk
          have hb' : ObjBody {} {} ((k :: ws) :: ls) (it :: its) := .line hline hbody
          obtain ⟨toks'', hbd, hl⟩ := body_lines cfg hb' ht (named_head hrest) (fits_zero hf)
          have hh : Header (k :: ts) [] (k :: ts) := .implicit hk1
          refine ⟨k :: ts, .done (by simpa using hk2) (by simpa using hk3), .obj hh hbd (not_bare hne) ?_⟩
          have := fits_next hh hbd (fits_zero hf)
          rw [counts_zero_add] at this ⊢
          exact named_lines cfg hrest hl this
      exact key {} body items hb rfl rfl toks ht hf

end

/-! ## MTL files -/

section
open Verif.Spec.Mtl

theorem mtlLine_stmt {l : List Bytes} {it : Item} (h : MtlLine l it) (mid : List Tok) : Stmt it (l ++ mid) mid := by
  cases h with
  | color hr hg hb => exact .color (float_isFloat hr) (float_isFloat hg) (float_isFloat hb)
  | num hx => exact .num (float_isFloat hx)
  | @illum t model hd =>
    refine .illum (parseUsize_iff.mpr ⟨t, .inl rfl, hd, ?_⟩)
    cases model <;> decide
  | map ht => exact .map ht

theorem mtlLine_cons {l : List Bytes} {it : Item} (h : MtlLine l it) : l ≠ [] := by
  cases h <;> simp

theorem mtlBody_lines {body : List (List Bytes)} {items : List Item} (h : MtlBody body items) {toks : List Tok}
    {rest : List (List Bytes)} (ht : LinesOf toks (body ++ rest))
    (hr : ∀ toks', LinesOf toks' rest → BodyEnd toks') :
    ∃ toks', Body items toks toks' ∧ LinesOf toks' rest := by
  induction h generalizing toks with
  | done => exact ⟨toks, .done (hr _ ht), ht⟩
  | blank _ ih =>
    obtain ⟨-, ⟨e, rfl⟩ | ⟨toks', rfl, ht'⟩⟩ := LinesOf.uncons ht
    · exact ih (.inl ⟨e, rfl⟩)
    · obtain ⟨toks'', hb, hl⟩ := ih ht'
      exact ⟨toks'', .blank hb, hl⟩
  | @line l it ls items hline _ ih =>
    obtain ⟨-, ⟨e, rfl⟩ | ⟨toks', rfl, ht'⟩⟩ := LinesOf.uncons ht
    · obtain ⟨toks'', hb, hl⟩ := ih (toks := []) (.inl ⟨e, rfl⟩)
      have := mtlLine_stmt hline []
      rw [List.append_nil] at this
      exact ⟨toks'', .stmt this hb, hl⟩
    · obtain ⟨toks'', hb, hl⟩ := ih ht'
      exact ⟨toks'', .stmt (mtlLine_stmt hline _) (.blank hb), hl⟩

theorem mats_lines {ls : List (List Bytes)} {mats : List MatAst} (h : Materials ls mats) {toks : List Tok}
    (ht : LinesOf toks ls) : Mats mats toks ∧ BodyEnd toks := by
  induction h generalizing toks with
  | done =>
    obtain rfl := ht.nil
    exact ⟨.done, .inl rfl⟩
  | @mat name body items rest mats hbody _ ih =>
    obtain ⟨-, ⟨e, rfl⟩ | ⟨toks', rfl, ht'⟩⟩ := LinesOf.uncons ht
    · obtain ⟨toks'', hb, hl⟩ := mtlBody_lines hbody (toks := []) (.inl ⟨e, rfl⟩) (fun _ h => (ih h).2)
      exact ⟨.mat hb (ih hl).1, .inr rfl⟩
    · obtain ⟨toks'', hb, hl⟩ := mtlBody_lines hbody ht' (fun _ h => (ih h).2)
      exact ⟨.mat (.blank hb) (ih hl).1, .inr rfl⟩

theorem mtlFile_lines {ls : List (List Bytes)} {mats : List MatAst} (h : MtlFile ls mats) {toks : List Tok}
    (ht : LinesOf toks ls) : FileOk toks mats := by
  induction h generalizing toks with
  | blank _ ih =>
    obtain ⟨-, ⟨e, rfl⟩ | ⟨toks', rfl, ht'⟩⟩ := LinesOf.uncons ht
    · exact ih (.inl ⟨e, rfl⟩)
    · exact .blank (ih ht')
  | mats h => exact .mats (mats_lines h ht).1

end

end Verif.Spec.Doc
