import Verif.Spec.Render
import Verif.Proofs.Numbers
import Verif.Proofs.ObjTop
import Verif.Proofs.Text2
import Verif.Proofs.ObjMeaning
import Verif.Proofs.ObjLines

/-!
# Writing OBJ files and reading them back
-/

namespace Verif.Obj

open Verif Verif.Spec Verif.Spec.Obj

/-! ## Tokens of rendered lines -/

theorem word_ordinary {w : Bytes} (h : Word w) : ∀ c ∈ w, byteAlphabet.ordinary c = true := by
  intro c hc
  have := h.2 c hc
  simp only [Alphabet.ordinary, byteAlphabet, Bool.not_or, Bool.and_eq_true, Bool.not_eq_true',
      beq_eq_false_iff_ne]
  tauto

theorem tokens_token_blank {t : Tok} (h : IsToken t) (r : Bytes) :
    tokens (t ++ 32 :: r) = t :: tokens r := by
  have hb : tokens (32 :: r) = tokens r := tokensOf_blank byteAlphabet rfl rfl rfl r
  rcases h with h | rfl | rfl
  · rw [tokens, tokensOf_word byteAlphabet t _ h.1 (word_ordinary h) (by simp; rfl)]
    exact congrArg _ hb
  · rw [← hb]; exact tokensOf_eol byteAlphabet rfl _
  · rw [← hb]; exact tokensOf_eol byteAlphabet rfl _

theorem tokens_token_nl {t : Tok} (h : IsToken t) (r : Bytes) :
    tokens (t ++ 10 :: r) = t :: nl :: tokens r := by
  rw [tokens_append_nl]
  rcases h with h | rfl | rfl
  · have := tokensOf_word byteAlphabet t [] h.1 (word_ordinary h) (by simp)
    rw [List.append_nil, tokensOf_nil] at this
    rw [tokens, this]; rfl
  · rfl
  · rfl

theorem tokens_line {ws : List Bytes} (h : ∀ w ∈ ws, IsToken w) (r : Bytes) :
    tokens (lineText ws ++ r) = ws ++ nl :: tokens r := by
  induction ws with
  | nil => exact tokensOf_eol byteAlphabet rfl _
  | cons w ws ih =>
    cases ws with
    | nil =>
      have := tokens_token_nl (h w (by simp)) r
      simpa [lineText, List.intercalate] using this
    | cons w' ws =>
      have e : lineText (w :: w' :: ws) ++ r = w ++ 32 :: (lineText (w' :: ws) ++ r) := by
        simp [lineText, List.intercalate]
      rw [e, tokens_token_blank (h w (by simp)), ih (fun x hx => h x (by simp [hx]))]
      rfl

/-! ## The words are words -/

theorem word_append {a b : Bytes} (ha : Word a) (hb : ∀ c ∈ b, c ≠ 32 ∧ c ≠ 9 ∧ c ≠ 92 ∧ c ≠ 10 ∧ c ≠ 13 ∧ c ≠ 35) :
    Word (a ++ b) :=
  ⟨by simp [ha.1], fun c hc => by
    rcases List.mem_append.mp hc with hc | hc
    · exact ha.2 c hc
    · exact hb c hc⟩

theorem word_showNat (n : Nat) : Word (showNat n) :=
  ⟨(showNat_spec n).1, fun c hc => (showNat_bytes n c hc).2⟩

theorem word_ref (r : Ref) : Word r.text := by
  have hs : ∀ n, ∀ c ∈ showNat n, c ≠ 32 ∧ c ≠ 9 ∧ c ≠ 92 ∧ c ≠ 10 ∧ c ≠ 13 ∧ c ≠ 35 :=
    fun n c hc => (showNat_bytes n c hc).2
  unfold Ref.text
  split
  · exact word_showNat _
  · exact word_append (word_append (word_showNat _) (by decide)) (hs _)
  · exact word_append (word_append (word_showNat _) (by decide)) (hs _)
  · exact word_append (word_append (word_append (word_append (word_showNat _) (by decide)) (hs _))
      (by decide)) (hs _)

theorem digit_word {c : UInt8} (h : isDigit c = true) :
    c ≠ 32 ∧ c ≠ 9 ∧ c ≠ 92 ∧ c ≠ 10 ∧ c ≠ 13 ∧ c ≠ 35 := by
  refine ⟨?_, ?_, ?_, ?_, ?_, ?_⟩ <;> (rintro rfl; exact absurd h (by decide))

/-- Neither blank nor end of line nor `#`. -/
def wordByte' (c : UInt8) : Bool := c != 32 && c != 9 && c != 92 && c != 10 && c != 13 && c != 35

theorem wordByte'_iff {c : UInt8} : wordByte' c = true ↔ c ≠ 32 ∧ c ≠ 9 ∧ c ≠ 92 ∧ c ≠ 10 ∧ c ≠ 13 ∧ c ≠ 35 := by
  simp [wordByte', and_assoc]

theorem all_dropSign {p : UInt8 → Bool} (h1 : p 43 = true) (h2 : p 45 = true) (t : Bytes) :
    t.all p = (dropSign t).all p := by
  unfold dropSign
  split <;> simp [*]

theorem all_takeDrop (p q : UInt8 → Bool) (h : ∀ c, q c = true → p c = true) (t : Bytes) :
    t.all p = (t.dropWhile q).all p := by
  induction t with
  | nil => rfl
  | cons c t ih =>
    by_cases hq : q c = true
    · simp [hq, h c hq, ih]
    · simp [hq]

theorem number_bytes {s : Bytes} (h : isFloatNumber s = true) : s.all wordByte' = true := by
  have hd : ∀ c, isDigit c = true → wordByte' c = true := fun c hc => wordByte'_iff.mpr (digit_word hc)
  rw [all_takeDrop _ isDigit hd]
  unfold isFloatNumber at h
  simp only [Bool.and_eq_true] at h
  have h2 := h.2
  clear h
  generalize s.dropWhile isDigit = r at h2
  have exp : ∀ x : Bytes, (match x with
      | [] => true
      | c :: r3 => (c == 101 || c == 69) && isExpTail r3) = true → x.all wordByte' = true := by
    intro x hx
    cases x with
    | nil => rfl
    | cons c r =>
      simp only [Bool.and_eq_true, Bool.or_eq_true, beq_iff_eq] at hx
      have h3 := hx.2
      unfold isExpTail at h3
      simp only [Bool.and_eq_true] at h3
      rw [List.all_cons, all_dropSign (by decide) (by decide) r, Bool.and_eq_true]
      refine ⟨by rcases hx.1 with rfl | rfl <;> decide, ?_⟩
      rw [List.all_eq_true]
      intro c hc
      exact hd c (List.all_eq_true.mp h3.2 c hc)
  split at h2
  · rename_i r2 e
    split at e
    · rename_i r'
      rw [List.all_cons, all_takeDrop _ isDigit hd, e]
      decide
    · rw [e]; rfl
  · rename_i c r3 e
    have he := exp (c :: r3) h2
    split at e
    · rename_i r'
      rw [List.all_cons, all_takeDrop _ isDigit hd r', e, he]
      decide
    · rw [e, he]

theorem word_float {t : Bytes} (h : isFloat t = true) : Word t := by
  have hall : t.all wordByte' = true := by
    rw [all_dropSign (by decide) (by decide)]
    unfold isFloat at h
    simp only [Bool.or_eq_true, beq_iff_eq] at h
    have low : ∀ w : Bytes, w.all wordByte' = true → (dropSign t).map lower = w →
        (dropSign t).all wordByte' = true := by
      intro w hw e
      rw [List.all_eq_true]
      intro c hc
      have : wordByte' (lower c) = true := List.all_eq_true.mp hw _ (e ▸ List.mem_map_of_mem hc)
      rw [wordByte'_iff] at this ⊢
      refine ⟨?_, ?_, ?_, ?_, ?_, ?_⟩ <;> (rintro rfl; exact absurd this (by decide))
    rcases h with h | (h | h) | h
    · exact number_bytes h
    · exact low _ (by decide) h
    · exact low _ (by decide) h
    · exact low _ (by decide) h
  refine ⟨?_, fun c hc => wordByte'_iff.mp (List.all_eq_true.mp hall c hc)⟩
  rintro rfl
  exact absurd h (by decide)

theorem valid_words {lo hi : Counts} {it : Item} (h : ValidItem lo hi it) : ∀ w ∈ it.words, IsToken w := by
  have hw : ∀ k : Bytes, Word k → IsToken k := fun k h => .inl h
  have hk : ∀ k ∈ keywords, k ≠ nl → IsToken k := by
    intro k hk hn
    refine .inl ?_
    revert k
    unfold Word
    decide
  intro w hmem
  cases it with
  | v x y z o =>
    simp only [Item.words, List.cons_append, List.nil_append, List.mem_cons] at hmem
    rcases hmem with rfl | rfl | rfl | rfl | hmem
    · exact hk _ (by decide) (by decide)
    · exact hw _ (word_float h.1)
    · exact hw _ (word_float h.2.1)
    · exact hw _ (word_float h.2.2.1)
    · exact hw _ (word_float (h.2.2.2 _ (Option.mem_toList.mp hmem)))
  | vt a b c =>
    simp only [Item.words, List.cons_append, List.nil_append, List.mem_cons, List.mem_append] at hmem
    rcases hmem with rfl | rfl | hmem | hmem
    · exact hk _ (by decide) (by decide)
    · exact hw _ (word_float h.1)
    · exact hw _ (word_float (h.2.1 _ (Option.mem_toList.mp hmem)))
    · exact hw _ (word_float (h.2.2.1 _ (Option.mem_toList.mp hmem)))
  | vn x y z =>
    simp only [Item.words, List.mem_cons, List.not_mem_nil, or_false] at hmem
    rcases hmem with rfl | rfl | rfl | rfl
    · exact hk _ (by decide) (by decide)
    · exact hw _ (word_float h.1)
    · exact hw _ (word_float h.2.1)
    · exact hw _ (word_float h.2.2)
  | g names =>
    rcases List.mem_cons.mp hmem with rfl | hmem
    · exact hk _ (by decide) (by decide)
    · exact (h _ hmem).1
  | s n =>
    simp only [Item.words, List.mem_cons, List.not_mem_nil, or_false] at hmem
    rcases hmem with rfl | rfl
    · exact hk _ (by decide) (by decide)
    · exact hw _ (word_showNat n)
  | usemtl name =>
    simp only [Item.words, List.mem_cons, List.not_mem_nil, or_false] at hmem
    rcases hmem with rfl | rfl
    · exact hk _ (by decide) (by decide)
    · exact h
  | p is =>
    rcases List.mem_cons.mp hmem with rfl | hmem
    · exact hk _ (by decide) (by decide)
    · obtain ⟨n, -, rfl⟩ := List.mem_map.mp hmem
      exact hw _ (word_showNat n)
  | l refs =>
    rcases List.mem_cons.mp hmem with rfl | hmem
    · exact hk _ (by decide) (by decide)
    · obtain ⟨n, -, rfl⟩ := List.mem_map.mp hmem
      exact hw _ (word_ref n)
  | f refs =>
    rcases List.mem_cons.mp hmem with rfl | hmem
    · exact hk _ (by decide) (by decide)
    · obtain ⟨n, -, rfl⟩ := List.mem_map.mp hmem
      exact hw _ (word_ref n)

/-! ## References -/

theorem numTok_show {lo hi k : Nat} (h1 : lo < k) (h2 : k ≤ hi) (hs : hi < 2 ^ 63) :
    NumTok lo hi (showNat k) k :=
  ⟨parseIsize_showNat (by unfold isizeMax; omega), h1, h2⟩

theorem pieceOk_show {lo hi k : Nat} (h1 : lo < k) (h2 : k ≤ hi) (hs : hi < 2 ^ 63) :
    PieceOk lo hi (showNat k) (some k) :=
  .inr ⟨k, (showNat_spec k).1, numTok_show h1 h2 hs, rfl⟩

theorem refTok_text {lo hi : Counts} {r : Ref} (h : ValidRef lo hi r) (hs : Small hi) :
    RefTok lo hi r.text r := by
  obtain ⟨hv, ht, hn⟩ := h
  have hsl : ∀ n, ∀ c ∈ showNat n, c ≠ 47 := fun n c hc => (showNat_bytes n c hc).1
  have pv := pieceOk_show hv.1 hv.2 hs.1
  obtain ⟨v, vt, vn⟩ := r
  have e0 : ∀ n, splitByte 47 (showNat n) = [showNat n] := fun n => splitByte_none _ (hsl n)
  have e1 : ∀ n (x : Bytes), splitByte 47 (showNat n ++ 47 :: x) = showNat n :: splitByte 47 x :=
    fun n x => splitByte_cons _ _ (hsl n)
  have e2 : ∀ x : Bytes, splitByte 47 (47 :: x) = [] :: splitByte 47 x := fun x => by simp [splitByte]
  cases vt with
  | none =>
    cases vn with
    | none =>
      have e : pieces (Ref.text ⟨v, none, none⟩) = [showNat v] := by simp [pieces, Ref.text, e0]
      refine ⟨by rw [e]; simp, ?_, ?_, ?_⟩ <;> unfold piece <;> rw [e]
      · exact pv
      · exact .inl ⟨rfl, rfl⟩
      · exact .inl ⟨rfl, rfl⟩
    | some n =>
      have e : pieces (Ref.text ⟨v, none, some n⟩) = [showNat v, [], showNat n] := by
        simp [pieces, Ref.text, e0, e1, e2]
      refine ⟨by rw [e]; simp, ?_, ?_, ?_⟩ <;> unfold piece <;> rw [e]
      · exact pv
      · exact .inl ⟨rfl, rfl⟩
      · exact pieceOk_show (hn n rfl).1 (hn n rfl).2 hs.2.2
  | some t =>
    cases vn with
    | none =>
      have e : pieces (Ref.text ⟨v, some t, none⟩) = [showNat v, showNat t] := by
        simp [pieces, Ref.text, e0, e1]
      refine ⟨by rw [e]; simp, ?_, ?_, ?_⟩ <;> unfold piece <;> rw [e]
      · exact pv
      · exact pieceOk_show (ht t rfl).1 (ht t rfl).2 hs.2.1
      · exact .inl ⟨rfl, rfl⟩
    | some n =>
      have e : pieces (Ref.text ⟨v, some t, some n⟩) = [showNat v, showNat t, showNat n] := by
        simp [pieces, Ref.text, e0, e1]
      refine ⟨by rw [e]; simp, ?_, ?_, ?_⟩ <;> unfold piece <;> rw [e]
      · exact pv
      · exact pieceOk_show (ht t rfl).1 (ht t rfl).2 hs.2.1
      · exact pieceOk_show (hn n rfl).1 (hn n rfl).2 hs.2.2

theorem stop_nl (cfg : Cfg) (lo hi : Counts) (rest : List Tok) : Stop cfg lo hi (nl :: rest) rest := by
  refine .inl ⟨nl, _, _, rfl, .v (by decide) (.notInt (by decide))⟩

theorem forall₂_map {α β : Type} {R : β → α → Prop} {f : α → β} {l : List α} (h : ∀ a ∈ l, R (f a) a) :
    List.Forall₂ R (l.map f) l := by
  induction l with
  | nil => exact .nil
  | cons a l ih => exact .cons (h a (by simp)) (ih fun b hb => h b (by simp [hb]))

/-! ## Statements, objects, files -/

theorem showNat_ne_off (n : Nat) : showNat n ≠ b!"off" := by
  intro e
  have := (showNat_spec n).2.1 111 (by rw [e]; simp)
  exact absurd this (by decide)

/-- A rendered statement is that statement, perhaps with the newline left over. -/
theorem stmt_words (cfg : Cfg) {lo hi : Counts} {it : Item} (h : ValidItem lo hi it) (hs : Small hi)
    (rest : List Tok) : ∃ mid, Stmt cfg lo hi it (it.words ++ nl :: rest) mid ∧ (mid = rest ∨ mid = nl :: rest) := by
  have hnf : NoFloat (nl :: rest) := by
    intro t ht
    obtain rfl := Option.some.inj ht
    decide
  cases it with
  | v x y z w =>
    refine ⟨nl :: rest, ?_, .inr rfl⟩
    cases w with
    | none => exact .v3 h.1 h.2.1 h.2.2.1 hnf
    | some w => exact .v4 h.1 h.2.1 h.2.2.1 (h.2.2.2 w rfl)
  | vt a b c =>
    refine ⟨nl :: rest, ?_, .inr rfl⟩
    cases b with
    | none =>
      obtain rfl := h.2.2.2 rfl
      exact .vt1 h.1 hnf
    | some b =>
      cases c with
      | none => exact .vt2 h.1 (h.2.1 b rfl) hnf
      | some c => exact .vt3 h.1 (h.2.1 b rfl) (h.2.2.1 c rfl)
  | vn x y z => exact ⟨nl :: rest, .vn h.1 h.2.1 h.2.2, .inr rfl⟩
  | g names => exact ⟨rest, .g (fun hm => (h _ hm).2 rfl) (.inl rfl), .inl rfl⟩
  | s n => exact ⟨nl :: rest, .s (.inr ⟨showNat_ne_off n, parseUsize_showNat h⟩), .inr rfl⟩
  | usemtl name => exact ⟨nl :: rest, .usemtl, .inr rfl⟩
  | p is =>
    exact ⟨rest, .p h.1 (forall₂_map fun k hk => numTok_show (h.2 k hk).1 (h.2 k hk).2 hs.1) (.inl rfl), .inl rfl⟩
  | l refs =>
    exact ⟨rest, .l h.1 (forall₂_map fun r hr => refTok_text (h.2.2 r hr) hs) h.2.1 (stop_nl ..), .inl rfl⟩
  | f refs =>
    exact ⟨rest, .f h.1 (forall₂_map fun r hr => refTok_text (h.2.2 r hr) hs) h.2.1 (stop_nl ..), .inl rfl⟩

theorem lineText_length (ws : List Bytes) : 0 < (lineText ws).length := by simp [lineText]

theorem body_text (cfg : Cfg) {lo hi : Counts} {items : List Item} (h : ValidItems lo hi items) {r : Bytes}
    (hf : Fits hi ((itemsText items).length + r.length)) (hr : BodyEnd (tokens r)) :
    Body cfg lo hi items (tokens (itemsText items ++ r)) (tokens r) := by
  induction items generalizing hi with
  | nil => exact .done hr
  | cons it items ih =>
    have e : itemsText (it :: items) ++ r = lineText it.words ++ (itemsText items ++ r) := by
      simp [itemsText]
    have hl : (itemsText (it :: items)).length = (lineText it.words).length + (itemsText items).length := by
      simp [itemsText]
    have hpos := lineText_length it.words
    rw [e, tokens_line (valid_words h.1)]
    obtain ⟨mid, hst, hmid⟩ := stmt_words cfg h.1 hf.small (tokens (itemsText items ++ r))
    have ih' := ih h.2 (hf.step (by omega) it)
    refine .stmt hst ?_
    rcases hmid with rfl | rfl
    · exact ih'
    · exact .blank ih'

theorem Fits.sum {lo : Counts} {items : List Item} {n : Nat}
    (h : Fits lo ((itemsText items).length + n)) : Fits (lo + countsOf items) n := by
  induction items generalizing lo with
  | nil =>
    have : lo + countsOf [] = lo := by rw [counts_add]; rfl
    rw [this]
    exact h.mono (by omega)
  | cons it items ih =>
    have hl : (itemsText (it :: items)).length = (lineText it.words).length + (itemsText items).length := by
      simp [itemsText]
    have hpos := lineText_length it.words
    have := ih (lo := lo + it.counts) (h.step (by omega) it)
    rw [countsOf_cons]
    have e : lo + it.counts + countsOf items = lo + (it.counts + countsOf items) := by
      simp only [counts_add, Counts.mk.injEq]; omega
    rwa [e] at this

theorem isToken_ne_nil {t : Tok} (h : IsToken t) : t ≠ [] := by
  rcases h with h | rfl | rfl
  · exact h.1
  · simp
  · simp

theorem named_text (cfg : Cfg) {lo : Counts} {objs : List ObjAst} (h : ValidObjects lo objs)
    (hf : Fits lo (objs.flatMap ObjAst.text).length) :
    Objects cfg lo objs (tokens (objs.flatMap ObjAst.text)) ∧ BodyEnd (tokens (objs.flatMap ObjAst.text)) := by
  induction objs generalizing lo with
  | nil => exact ⟨.done, .inl rfl⟩
  | cons o objs ih =>
    obtain ⟨h1, h2, h3, h4⟩ := h
    have hne := isToken_ne_nil h1
    have ho : IsToken b!"o" := .inl (by unfold Word; decide)
    have e : (o :: objs).flatMap ObjAst.text =
        lineText [b!"o", o.name] ++ (itemsText o.items ++ objs.flatMap ObjAst.text) := by
      simp [ObjAst.text, hne]
    rw [e, List.length_append, List.length_append] at hf
    have hf' : Fits lo ((itemsText o.items).length + (objs.flatMap ObjAst.text).length) := hf.mono (by omega)
    obtain ⟨i1, i2⟩ := ih h4 hf'.sum
    rw [e, tokens_line (by simp [h1, ho])]
    refine ⟨?_, .inr rfl⟩
    have hb := body_text cfg h2 (r := objs.flatMap ObjAst.text) hf' i2
    obtain ⟨name, items⟩ := o
    exact .obj .named hb h3 i1

theorem words_cons (it : Item) : ∃ k ws, it.words = k :: ws ∧ k ≠ b!"o" ∧ k ≠ nl ∧ k ≠ b!"mtllib" := by
  cases it <;> exact ⟨_, _, rfl, by decide, by decide, by decide⟩

theorem file_text (cfg : Cfg) {file : FileAst} (h : ValidFile file) (hlen : file.text.length < 2 ^ 63) :
    FileOk cfg (tokens file.text) file := by
  obtain ⟨libs, objs⟩ := file
  obtain ⟨hl, ho⟩ := h
  -- the objects
  have key : Fits {} (objs.flatMap ObjAst.text).length →
      Objects cfg {} objs (tokens (objs.flatMap ObjAst.text)) ∧
      (tokens (objs.flatMap ObjAst.text)).head? ≠ some nl ∧
      (tokens (objs.flatMap ObjAst.text)).head? ≠ some b!"mtllib" := by
    intro hf
    cases objs with
    | nil => exact ⟨.done, by decide, by decide⟩
    | cons o objs =>
      obtain ⟨h1, h2, h3, h4⟩ := ho
      by_cases hn : o.name = []
      · have e : (o :: objs).flatMap ObjAst.text = itemsText o.items ++ objs.flatMap ObjAst.text := by
          simp [ObjAst.text, hn]
        rw [e] at hf ⊢
        rw [List.length_append] at hf
        have e0 : ∀ c : Counts, ({} : Counts) + c = c := by
          intro c; rw [counts_add]; cases c; simp
        have hfs := hf.sum
        rw [e0] at hfs
        obtain ⟨i1, i2⟩ := named_text cfg h4 hfs
        have hb := body_text cfg h2 hf i2
        obtain ⟨name, items⟩ := o
        dsimp only at hn h2 h3 h4 i1 hb hf ⊢
        subst hn
        cases items with
        | nil => exact absurd (by unfold Bare; simp) h3
        | cons it items =>
          obtain ⟨k, ws, ek, hk1, hk2, hk3⟩ := words_cons it
          have et : tokens (itemsText (it :: items) ++ objs.flatMap ObjAst.text) =
              k :: (ws ++ nl :: tokens (itemsText items ++ objs.flatMap ObjAst.text)) := by
            have : itemsText (it :: items) ++ objs.flatMap ObjAst.text =
              lineText it.words ++ (itemsText items ++ objs.flatMap ObjAst.text) := by simp [itemsText]
            rw [this, tokens_line (valid_words h2.1), ek]; rfl
          have hh : Header (tokens (itemsText (it :: items) ++ objs.flatMap ObjAst.text)) []
              (tokens (itemsText (it :: items) ++ objs.flatMap ObjAst.text)) := by
            rw [et]; exact .implicit hk1
          refine ⟨.obj hh hb h3 (by rw [e0]; exact i1), ?_, ?_⟩
          · rw [et]; simpa using hk2
          · rw [et]; simpa using hk3
      · have ht : IsToken o.name := h1.resolve_left hn
        have e0 : ({} : Counts) + countsOf o.items = countsOf o.items := by
          rw [counts_add]; simp
        have hv : ValidObjects {} (o :: objs) := ⟨ht, h2, h3, by rw [e0]; exact h4⟩
        obtain ⟨i1, i2⟩ := named_text cfg hv hf
        refine ⟨i1, ?_, ?_⟩
        · rcases i2 with i2 | i2 <;> rw [i2] <;> decide
        · rcases i2 with i2 | i2 <;> rw [i2] <;> decide
  have hsplit : (FileAst.text ⟨libs, objs⟩).length =
      (if libs = [] then ([] : Bytes) else lineText (b!"mtllib" :: libs)).length +
        (objs.flatMap ObjAst.text).length := by
    simp [FileAst.text]
  have hf : Fits {} (objs.flatMap ObjAst.text).length := by
    refine ⟨?_, ?_, ?_⟩ <;> (show 0 + _ < _) <;> omega
  obtain ⟨k1, k2, k3⟩ := key hf
  by_cases hlibs : libs = []
  · subst hlibs
    have e : FileAst.text ⟨[], objs⟩ = objs.flatMap ObjAst.text := by simp [FileAst.text]
    rw [e]
    exact ⟨_, .done k2 k3, k1⟩
  · have e : FileAst.text ⟨libs, objs⟩ = lineText (b!"mtllib" :: libs) ++ objs.flatMap ObjAst.text := by
      simp [FileAst.text, hlibs]
    rw [e, tokens_line]
    · refine ⟨_, ?_, k1⟩
      have := Libs.line (names := libs) (mid := nl :: tokens (objs.flatMap ObjAst.text)) (fun hm => (hl _ hm).2 rfl) (.inl rfl) (.done k2 k3)
      rw [List.append_nil] at this
      exact this
    · intro w hw
      rcases List.mem_cons.mp hw with rfl | hw
      · exact .inl (by unfold Word; decide)
      · exact (hl w hw).1

/-! ## What can be read can be written -/

theorem pieceOk_range {lo hi : Nat} {p : Bytes} {o : Option Nat} (h : PieceOk lo hi p o) :
    ∀ k ∈ o, lo < k ∧ k ≤ hi := by
  rintro k hk
  rcases h with ⟨-, rfl⟩ | ⟨k', -, h, rfl⟩
  · simp at hk
  · obtain rfl := Option.some.inj hk
    exact h.2

theorem refTok_validRef {lo hi : Counts} {t : Tok} {r : Ref} (h : RefTok lo hi t r) : ValidRef lo hi r :=
  ⟨pieceOk_range h.v _ rfl, pieceOk_range h.vt, pieceOk_range h.vn⟩

theorem forall₂_snd {α β : Type} {R : α → β → Prop} {Q : β → Prop} (hq : ∀ a b, R a b → Q b)
    {l : List α} {m : List β} (h : List.Forall₂ R l m) : ∀ b ∈ m, Q b := by
  induction h with
  | nil => simp
  | cons h _ ih =>
    intro b hb
    rcases List.mem_cons.mp hb with rfl | hb
    · exact hq _ _ h
    · exact ih b hb

theorem stmt_validItem {cfg : Cfg} {lo hi : Counts} {it : Item} {toks rest : List Tok}
    (h : Stmt cfg lo hi it toks rest) (ht : ∀ t ∈ toks, IsToken t) : ValidItem lo hi it := by
  cases h with
  | v3 h1 h2 h3 => exact ⟨h1, h2, h3, by simp⟩
  | v4 h1 h2 h3 h4 => exact ⟨h1, h2, h3, by simpa using h4⟩
  | vt1 h1 => exact ⟨h1, by simp, by simp, fun _ => rfl⟩
  | vt2 h1 h2 => exact ⟨h1, by simpa using h2, by simp, fun _ => rfl⟩
  | vt3 h1 h2 h3 => exact ⟨h1, by simpa using h2, by simpa using h3, by simp⟩
  | vn h1 h2 h3 => exact ⟨h1, h2, h3⟩
  | g h1 => exact fun n hn => ⟨ht n (by simp [hn]), fun e => h1 (e ▸ hn)⟩
  | s h =>
    rcases h with ⟨-, rfl⟩ | ⟨-, h⟩
    · exact Nat.zero_le _
    · exact (parseUsize_iff.mp h).choose_spec.2.2
  | usemtl => exact ht _ (by simp)
  | p h1 h2 _ => exact ⟨h1, forall₂_snd (fun _ _ h => h.2) h2⟩
  | l h1 h2 h3 _ => exact ⟨h1, h3, forall₂_snd (fun _ _ h => refTok_validRef h) h2⟩
  | f h1 h2 h3 _ => exact ⟨h1, h3, forall₂_snd (fun _ _ h => refTok_validRef h) h2⟩

theorem body_validItems {cfg : Cfg} {lo hi : Counts} {items toks rest} (h : Body cfg lo hi items toks rest)
    (ht : ∀ t ∈ toks, IsToken t) : ValidItems lo hi items := by
  induction h with
  | done => trivial
  | blank _ ih => exact ih fun t h => ht t (by simp [h])
  | stmt h _ ih => exact ⟨stmt_validItem h ht, ih fun t h' => ht t ((stmt_suffix h).subset h')⟩

end Verif.Obj
