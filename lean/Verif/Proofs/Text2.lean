import Verif.Proofs.Text

/-!
# Tokenisation read from right to left

What the tokens of `c :: r` are depends only on `c` and on three things about `r`:
its tokens, its tokens after the current line's content is dropped, and whether it
starts inside a word.  This gives congruence and concatenation laws.
-/

namespace Verif.Spec

variable {α : Type} (A : Alphabet α)

/-- What matters about a suffix. -/
structure View (α : Type) where
  /-- its tokens -/
  toks : List (List α)
  /-- its tokens if its beginning is inside a comment -/
  after : List (List α)
  /-- it starts with a symbol of a word -/
  inWord : Bool

def view (r : List α) : View α where
  toks := tokensOf A r
  after := tokensOf A (r.dropWhile fun c => !A.eol c)
  inWord := match r with
    | [] => false
    | c :: _ => A.ordinary c

/-- Put a symbol in front. -/
def View.push (c : α) (v : View α) : View α :=
  if A.eol c then ⟨[c] :: v.toks, [c] :: v.toks, false⟩
  else if A.blank c then ⟨v.toks, v.after, false⟩
  else if A.hash c then ⟨v.after, v.after, false⟩
  else
    ⟨if v.inWord then
        match v.toks with
        | [] => [[c]]
        | w :: ws => (c :: w) :: ws
      else [c] :: v.toks, v.after, true⟩

variable {A}

theorem ordinary_iff {c : α} : A.ordinary c = true ↔
    A.eol c = false ∧ A.blank c = false ∧ A.hash c = false := by
  simp only [Alphabet.ordinary]
  cases A.eol c <;> cases A.blank c <;> cases A.hash c <;> simp

theorem view_cons (hd : A.Disjoint) (c : α) (r : List α) : view A (c :: r) = (view A r).push A c := by
  unfold View.push
  by_cases h1 : A.eol c = true
  · have : A.ordinary c = false := by simp [Alphabet.ordinary, h1]
    simp [view, h1, tokensOf_eol A h1, this]
  · simp only [Bool.not_eq_true] at h1
    by_cases h2 : A.blank c = true
    · have : A.ordinary c = false := by simp [Alphabet.ordinary, h2]
      simp [view, h1, h2, tokensOf_blank A h2 h1 (hd.blank_hash c h2), this]
    · simp only [Bool.not_eq_true] at h2
      by_cases h3 : A.hash c = true
      · have : A.ordinary c = false := by simp [Alphabet.ordinary, h3]
        simp [view, h1, h2, h3, tokensOf_hash A h3 h1, this]
      · simp only [Bool.not_eq_true] at h3
        have h4 : A.ordinary c = true := ordinary_iff.mpr ⟨h1, h2, h3⟩
        simp only [view, h1, h2, h3, h4, List.dropWhile_cons, Bool.not_false, if_true,
          Bool.false_eq_true, if_false, View.mk.injEq, and_true]
        have e := List.takeWhile_append_dropWhile (p := A.ordinary) (l := r)
        have hr : ∀ x ∈ (r.dropWhile A.ordinary).head?, A.ordinary x = false := head_dropWhile
        have hw : ∀ x ∈ r.takeWhile A.ordinary, A.ordinary x = true := mem_takeWhile
        have e1 : tokensOf A (c :: r) = (c :: r.takeWhile A.ordinary) ::
            tokensOf A (r.dropWhile A.ordinary) := by
          have := tokensOf_word A (c :: r.takeWhile A.ordinary) (r.dropWhile A.ordinary) (by simp)
            (by intro x hx; simp at hx; rcases hx with rfl | hx
                · exact h4
                · exact hw x hx) hr
          simpa [e] using this
        rw [e1]
        cases r with
        | nil => simp [tokensOf_nil]
        | cons d r =>
          by_cases h5 : A.ordinary d = true
          · have e2 := tokensOf_word A ((d :: r).takeWhile A.ordinary) ((d :: r).dropWhile A.ordinary)
              (by simp [h5]) hw hr
            rw [e] at e2
            simp [h5, e2]
          · simp [h5]

theorem view_append (hd : A.Disjoint) (a r : List α) :
    view A (a ++ r) = a.foldr (fun c v => v.push A c) (view A r) := by
  induction a with
  | nil => rfl
  | cons c a ih => rw [List.cons_append, view_cons hd, ih]; rfl

/-- Texts with the same view can replace each other at the end of any text. -/
theorem tokensOf_congr (hd : A.Disjoint) (a : List α) {r s : List α} (h : view A r = view A s) :
    tokensOf A (a ++ r) = tokensOf A (a ++ s) := by
  have : view A (a ++ r) = view A (a ++ s) := by rw [view_append hd, view_append hd, h]
  exact congrArg View.toks this

/-- Line ends cut a text into independent parts. -/
theorem tokensOf_append_eol (hd : A.Disjoint) (a : List α) {c : α} (hc : A.eol c = true) (b : List α) :
    tokensOf A (a ++ c :: b) = tokensOf A a ++ [c] :: tokensOf A b := by
  have key : (view A (a ++ c :: b)).toks = (view A a).toks ++ [c] :: tokensOf A b ∧
      (view A (a ++ c :: b)).after = (view A a).after ++ [c] :: tokensOf A b ∧
      (view A (a ++ c :: b)).inWord = (view A a).inWord ∧
      ((view A a).inWord = true → (view A a).toks ≠ []) := by
    induction a with
    | nil =>
      have : A.ordinary c = false := by simp [Alphabet.ordinary, hc]
      simp [view, tokensOf_eol A hc, tokensOf_nil, this, hc]
    | cons d a ih =>
      rw [List.cons_append, view_cons hd, view_cons hd]
      generalize view A (a ++ c :: b) = v at ih
      generalize view A a = u at ih
      obtain ⟨h1, h2, h3, h4⟩ := ih
      unfold View.push
      split
      · simp [h1]
      · split
        · simp [h1, h2]
        · split
          · simp [h2]
          · simp only [h2, h3, h1, true_and, forall_const]
            cases hu : u.inWord with
            | false => simp
            | true =>
              cases ht : u.toks with
              | nil => exact absurd ht (h4 hu)
              | cons w ws => simp
  exact key.1

theorem tokens_append_nl (a b : Bytes) : tokens (a ++ 10 :: b) = tokens a ++ nl :: tokens b :=
  tokensOf_append_eol byteAlphabet_disjoint a rfl b

theorem tokens_congr (a : Bytes) {r s : Bytes} (h : view byteAlphabet r = view byteAlphabet s) :
    tokens (a ++ r) = tokens (a ++ s) :=
  tokensOf_congr byteAlphabet_disjoint a h

/-! ## Comments and blanks -/

theorem view_comment (hd : A.Disjoint) {c : α} (hc : A.hash c = true) (body r : List α)
    (hb : ∀ x ∈ body, A.eol x = false) (hr : ∀ x ∈ r.head?, A.eol x = true) :
    view A (c :: body ++ r) = view A r := by
  have e : (body ++ r).dropWhile (fun c => !A.eol c) = r := by
    rw [List.dropWhile_append_of_pos (by intro x hx; simp [hb x hx])]
    cases r with
    | nil => rfl
    | cons d r => simp [hr d (by simp)]
  have e' : r.dropWhile (fun c => !A.eol c) = r := by
    cases r with
    | nil => rfl
    | cons d r => simp [hr d (by simp)]
  have h1 := hd.hash_eol c hc
  have h2 : A.blank c = false := by
    cases h : A.blank c with
    | false => rfl
    | true => have := hd.blank_hash c h; simp [hc] at this
  rw [List.cons_append, view_cons hd]
  simp only [View.push, h1, h2, hc, if_true, Bool.false_eq_true, if_false]
  simp only [view, e, e']
  congr 1
  cases r with
  | nil => rfl
  | cons d r => simp [Alphabet.ordinary, hr d (by simp)]

theorem view_blank (hd : A.Disjoint) {c : α} (hc : A.blank c = true) (r : List α) :
    view A (c :: r) = ⟨tokensOf A r, (view A r).after, false⟩ := by
  rw [view_cons hd]
  simp only [View.push, hc, hd.blank_eol c hc, if_true, Bool.false_eq_true, if_false]
  rfl

theorem view_blank_blank (hd : A.Disjoint) {c d : α} (hc : A.blank c = true) (hd' : A.blank d = true)
    (r : List α) : view A (c :: d :: r) = view A (d :: r) := by
  rw [view_blank hd hc, view_blank hd hd', tokensOf_blank A hd' (hd.blank_eol d hd') (hd.blank_hash d hd')]

/-! ## The shape and position of tokens -/

theorem token_shape (hd : A.Disjoint) (text : List α) : ∀ t ∈ tokensOf A text,
    (∃ c, A.eol c = true ∧ t = [c]) ∨ (t ≠ [] ∧ ∀ c ∈ t, A.ordinary c = true) := by
  induction text using text_induction (A := A) with
  | nil => simp [tokensOf_nil]
  | eol c r h ih =>
    rw [tokensOf_eol A h]
    intro t ht
    rcases List.mem_cons.mp ht with rfl | ht
    · exact .inl ⟨c, h, rfl⟩
    · exact ih t ht
  | blank c r h ih =>
    rw [tokensOf_blank A h (hd.blank_eol c h) (hd.blank_hash c h)]; exact ih
  | hash c r h ih => rw [tokensOf_hash A h (hd.hash_eol c h)]; exact ih
  | word w r h1 h2 h3 ih =>
    rw [tokensOf_word A w r h1 h2 h3]
    intro t ht
    rcases List.mem_cons.mp ht with rfl | ht
    · exact .inr ⟨h1, h2⟩
    · exact ih t ht

/-- Every token stands in the text, and what is before (after) it in the token
sequence are the tokens of the text before (after) it. -/
theorem token_position (hd : A.Disjoint) {text : List α} {pre post : List (List α)} {t : List α}
    (h : tokensOf A text = pre ++ t :: post) :
    ∃ a b, text = a ++ t ++ b ∧ tokensOf A a = pre ∧ tokensOf A b = post := by
  induction text using text_induction (A := A) generalizing pre with
  | nil => simp [tokensOf_nil] at h
  | eol c r hc ih =>
    rw [tokensOf_eol A hc] at h
    cases pre with
    | nil =>
      simp only [List.nil_append, List.cons.injEq] at h
      exact ⟨[], r, by simp [← h.1], tokensOf_nil A, h.2⟩
    | cons p pre =>
      simp only [List.cons_append, List.cons.injEq] at h
      obtain ⟨a, b, e1, e2, e3⟩ := ih h.2
      exact ⟨c :: a, b, by simp [e1], by rw [tokensOf_eol A hc, e2, h.1], e3⟩
  | blank c r hc ih =>
    rw [tokensOf_blank A hc (hd.blank_eol c hc) (hd.blank_hash c hc)] at h
    obtain ⟨a, b, e1, e2, e3⟩ := ih h
    exact ⟨c :: a, b, by simp [e1],
      by rw [tokensOf_blank A hc (hd.blank_eol c hc) (hd.blank_hash c hc), e2], e3⟩
  | hash c r hc ih =>
    rw [tokensOf_hash A hc (hd.hash_eol c hc)] at h
    obtain ⟨a, b, e1, e2, e3⟩ := ih h
    refine ⟨c :: (r.takeWhile (fun c => !A.eol c) ++ a), b, ?_, ?_, e3⟩
    · have e := List.takeWhile_append_dropWhile (p := fun c => !A.eol c) (l := r)
      rw [e1] at e
      simp only [List.cons_append, List.append_assoc, List.cons.injEq, true_and]
      simp only [List.append_assoc] at e
      exact e.symm
    · rw [tokensOf_hash A hc (hd.hash_eol c hc)]
      rw [List.dropWhile_append_of_pos mem_takeWhile]
      rw [← e2]
      congr 1
      cases a with
      | nil => rfl
      | cons d a =>
        have : (fun c => !A.eol c) d = false :=
          head_dropWhile (p := fun c => !A.eol c) (l := r) d (by rw [e1]; simp)
        simp only [List.dropWhile_cons, this, Bool.false_eq_true, if_false]
  | word w r h1 h2 h3 ih =>
    rw [tokensOf_word A w r h1 h2 h3] at h
    cases pre with
    | nil =>
      simp only [List.nil_append, List.cons.injEq] at h
      exact ⟨[], r, by simp [← h.1], tokensOf_nil A, h.2⟩
    | cons p pre =>
      simp only [List.cons_append, List.cons.injEq] at h
      obtain ⟨a, b, e1, e2, e3⟩ := ih h.2
      refine ⟨w ++ a, b, by simp [e1], ?_, e3⟩
      rw [tokensOf_word A w a h1 h2, e2, h.1]
      intro x hx
      refine h3 x ?_
      rw [e1]
      cases a with
      | nil => simp at hx
      | cons d a => simpa using hx

/-- The terminators among the tokens are the terminators in the text. -/
theorem count_eol (hd : A.Disjoint) [DecidableEq α] {c : α} (hc : A.eol c = true) (text : List α) :
    (tokensOf A text).count [c] = text.count c := by
  induction text using text_induction (A := A) with
  | nil => simp [tokensOf_nil]
  | eol d r h ih =>
    rw [tokensOf_eol A h]
    simp only [List.count_cons, ih]
    congr 1
    by_cases e : d = c
    · subst e; simp
    · simp [e]
  | blank d r h ih =>
    rw [tokensOf_blank A h (hd.blank_eol d h) (hd.blank_hash d h), ih, List.count_cons]
    have : d ≠ c := by rintro rfl; simp [hd.blank_eol d h] at hc
    simp [this]
  | hash d r h ih =>
    rw [tokensOf_hash A h (hd.hash_eol d h), ih, List.count_cons]
    have : d ≠ c := by rintro rfl; simp [hd.hash_eol d h] at hc
    have e := List.takeWhile_append_dropWhile (p := fun c => !A.eol c) (l := r)
    have e' : (r.takeWhile fun c => !A.eol c).count c = 0 := by
      rw [List.count_eq_zero]
      intro hm
      have := mem_takeWhile (p := fun c => !A.eol c) c hm
      simp [hc] at this
    have e2 : r.count c = (r.dropWhile fun c => !A.eol c).count c := by
      have := congrArg (List.count c) e
      rw [List.count_append, e'] at this
      omega
    simp [this, e2]
  | word w r h1 h2 h3 ih =>
    rw [tokensOf_word A w r h1 h2 h3]
    have e' : w.count c = 0 := by
      rw [List.count_eq_zero]
      intro hm
      have := ordinary_iff.mp (h2 c hm)
      simp [hc] at this
    have : w ≠ [c] := by rintro rfl; simp at e'
    simp [List.count_append, ih, e', this]

theorem nls_tokens (text : Bytes) : (tokens text).count nl = text.count 10 :=
  count_eol byteAlphabet_disjoint rfl text

/-! ## Bytes and characters -/

/-- The bytes of a string of characters. -/
def encode (s : List Char) : Bytes := s.flatMap String.utf8EncodeChar

/-- A byte that is not ASCII. -/
theorem ordinary_high {b : UInt8} (h : 128 ≤ b.toNat) : byteAlphabet.ordinary b = true := by
  rw [ordinary_iff]
  simp only [byteAlphabet, Bool.or_eq_false_iff, beq_eq_false_iff_ne]
  refine ⟨⟨?_, ?_⟩, ⟨⟨?_, ?_⟩, ?_⟩, ?_⟩ <;> (rintro rfl; revert h; decide)

theorem encodeChar_high {c : Char} (h : 128 ≤ c.val.toNat) :
    ∀ b ∈ String.utf8EncodeChar c, 128 ≤ b.toNat := by
  unfold String.utf8EncodeChar
  simp only
  intro b hb
  split at hb
  · omega
  · split at hb
    · simp only [List.mem_cons, List.not_mem_nil, or_false] at hb
      rcases hb with rfl | rfl <;> simp <;> omega
    · split at hb
      · simp only [List.mem_cons, List.not_mem_nil, or_false] at hb
        rcases hb with rfl | rfl | rfl <;> simp <;> omega
      · simp only [List.mem_cons, List.not_mem_nil, or_false] at hb
        rcases hb with rfl | rfl | rfl | rfl <;> simp <;> omega

theorem encodeChar_low {c : Char} (h : c.val.toNat < 128) :
    String.utf8EncodeChar c = [UInt8.ofNat c.val.toNat] := by
  unfold String.utf8EncodeChar
  simp only
  rw [if_pos (by omega)]

theorem char_beq {c d : Char} : (c == d) = (c.val.toNat == d.val.toNat) := by
  rw [Bool.eq_iff_iff]
  simp only [beq_iff_eq]
  constructor
  · rintro rfl; rfl
  · intro h; exact Char.ext (UInt32.toNat_inj.mp h)

theorem byte_beq {b d : UInt8} : (b == d) = (b.toNat == d.toNat) := by
  rw [Bool.eq_iff_iff]
  simp only [beq_iff_eq]
  constructor
  · rintro rfl; rfl
  · intro h; exact UInt8.toNat_inj.mp h

/-- A character and the byte of the same number are in the same class. -/
theorem classes_low {c : Char} (h : c.val.toNat < 128) :
    byteAlphabet.eol (UInt8.ofNat c.val.toNat) = charAlphabet.eol c ∧
    byteAlphabet.blank (UInt8.ofNat c.val.toNat) = charAlphabet.blank c ∧
    byteAlphabet.hash (UInt8.ofNat c.val.toNat) = charAlphabet.hash c := by
  have e : (UInt8.ofNat c.val.toNat).toNat = c.val.toNat := by
    simp only [UInt8.toNat_ofNat']
    omega
  simp only [byteAlphabet, charAlphabet, char_beq, byte_beq, e]
  exact ⟨rfl, rfl, rfl⟩

theorem classes_high {c : Char} (h : 128 ≤ c.val.toNat) : charAlphabet.ordinary c = true := by
  rw [ordinary_iff]
  simp only [charAlphabet, Bool.or_eq_false_iff, beq_eq_false_iff_ne]
  refine ⟨⟨?_, ?_⟩, ⟨⟨?_, ?_⟩, ?_⟩, ?_⟩ <;> (rintro rfl; revert h; decide)

/-- Encode what is in a view. -/
def View.encode (v : View Char) : View UInt8 := ⟨v.toks.map Spec.encode, v.after.map Spec.encode, v.inWord⟩

theorem push_ordinary {c : α} (h : A.ordinary c = true) (v : View α) :
    v.push A c = ⟨if v.inWord then
        match v.toks with
        | [] => [[c]]
        | w :: ws => (c :: w) :: ws
      else [c] :: v.toks, v.after, true⟩ := by
  obtain ⟨h1, h2, h3⟩ := ordinary_iff.mp h
  simp [View.push, h1, h2, h3]

theorem push_word (w : List α) (hne : w ≠ []) (hw : ∀ c ∈ w, A.ordinary c = true) (v : View α) :
    w.foldr (fun c v => v.push A c) v = ⟨if v.inWord then
        match v.toks with
        | [] => [w]
        | x :: xs => (w ++ x) :: xs
      else w :: v.toks, v.after, true⟩ := by
  induction w with
  | nil => exact absurd rfl hne
  | cons c w ih =>
    have hc := hw c (by simp)
    by_cases hne' : w = []
    · subst hne'
      simp only [List.foldr_cons, List.foldr_nil, push_ordinary hc]
      rfl
    · rw [List.foldr_cons, ih hne' (fun x hx => hw x (by simp [hx])), push_ordinary hc]
      simp only [if_true]
      cases v.inWord with
      | false => simp
      | true => cases v.toks <;> simp

/-- Tokenising the bytes of a text is tokenising its characters. -/
theorem view_encode (s : List Char) :
    view byteAlphabet (encode s) = (view charAlphabet s).encode := by
  induction s with
  | nil => simp [view, encode, View.encode, tokensOf_nil]
  | cons c s ih =>
    have e : encode (c :: s) = String.utf8EncodeChar c ++ encode s := by simp [encode]
    rw [e, view_append byteAlphabet_disjoint, view_cons charAlphabet_disjoint, ih]
    generalize view charAlphabet s = v
    have e1 : encode [c] = String.utf8EncodeChar c := by simp [encode]
    have e2 : ∀ w, encode (c :: w) = String.utf8EncodeChar c ++ encode w := by simp [encode]
    by_cases hc : c.val.toNat < 128
    · have hl := encodeChar_low hc
      obtain ⟨h1, h2, h3⟩ := classes_low hc
      rw [hl] at e1 e2 ⊢
      simp only [List.foldr_cons, List.foldr_nil]
      unfold View.push
      rw [h1, h2, h3]
      split
      · simp [View.encode, e1]
      · split
        · simp [View.encode]
        · split
          · simp [View.encode]
          · rcases v with ⟨ts, af, iw⟩
            cases iw <;> cases ts <;> simp [View.encode, e1, e2]
    · have hc' : 128 ≤ c.val.toNat := by omega
      rw [push_word _ String.utf8EncodeChar_ne_nil
        (fun b hb => ordinary_high (encodeChar_high hc' b hb)), push_ordinary (classes_high hc')]
      rcases v with ⟨ts, af, iw⟩
      cases iw <;> cases ts <;> simp [View.encode, e1, e2]

theorem tokens_encode (s : List Char) :
    tokens (encode s) = (tokensOf charAlphabet s).map encode :=
  congrArg View.toks (view_encode s)

end Verif.Spec
