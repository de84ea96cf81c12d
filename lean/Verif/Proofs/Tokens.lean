import Verif.Spec.Lexer

/-!
# Equations of the tokenisation specification
-/

namespace Verif.Spec

variable {α : Type} (A : Alphabet α)

/-- A symbol that belongs to a word. -/
def Alphabet.ordinary (c : α) : Bool := !(A.blank c || A.eol c || A.hash c)

theorem lines_cons_eq (r : List α) : ∃ l t more, lines A r = (l, t) :: more := by
  cases r with
  | nil => exact ⟨_, _, _, rfl⟩
  | cons c r =>
    simp only [lines]
    split
    · exact ⟨_, _, _, rfl⟩
    · split <;> exact ⟨_, _, _, rfl⟩

theorem cut_cons_eq (p : α → Bool) (r : List α) : ∃ w ws, cut p r = w :: ws := by
  cases r with
  | nil => exact ⟨_, _, rfl⟩
  | cons c r =>
    simp only [cut]
    split
    · exact ⟨_, _, rfl⟩
    · split <;> exact ⟨_, _, rfl⟩

theorem tokensOf_nil : tokensOf A [] = [] := by
  simp [tokensOf, lines, lineTokens, stripComment, words, cut]

theorem tokensOf_eol {c : α} (h : A.eol c = true) (r : List α) :
    tokensOf A (c :: r) = [c] :: tokensOf A r := by
  simp [tokensOf, lines, h, lineTokens, stripComment, words, cut]

theorem words_blank {c : α} (h : A.blank c = true) (l : List α) : words A (c :: l) = words A l := by
  simp [words, cut, h]

theorem tokensOf_blank {c : α} (h : A.blank c = true) (he : A.eol c = false)
    (hh : A.hash c = false) (r : List α) : tokensOf A (c :: r) = tokensOf A r := by
  obtain ⟨l, t, more, e⟩ := lines_cons_eq A r
  simp [tokensOf, lines, he, e, lineTokens, stripComment, hh, words_blank A h]

theorem tokensOf_hash_aux (r : List α) :
    ∃ l t more, lines A r = (l, t) :: more ∧
      lines A (r.dropWhile fun c => !A.eol c) = ([], t) :: more := by
  induction r with
  | nil => exact ⟨[], none, [], rfl, rfl⟩
  | cons c r ih =>
    by_cases h : A.eol c = true
    · exact ⟨[], some c, lines A r, by simp [lines, h], by simp [h, lines]⟩
    · obtain ⟨l, t, more, e1, e2⟩ := ih
      exact ⟨c :: l, t, more, by simp [lines, h, e1], by simp [h, e2]⟩

theorem tokensOf_hash {c : α} (h : A.hash c = true) (he : A.eol c = false) (r : List α) :
    tokensOf A (c :: r) = tokensOf A (r.dropWhile fun c => !A.eol c) := by
  obtain ⟨l, t, more, e1, e2⟩ := tokensOf_hash_aux A r
  simp [tokensOf, lines, he, e1, e2, lineTokens, stripComment, h]

theorem lines_ordinary_append (w r : List α) (hw : ∀ c ∈ w, A.eol c = false) :
    ∃ l t more, lines A r = (l, t) :: more ∧ lines A (w ++ r) = (w ++ l, t) :: more := by
  induction w with
  | nil => obtain ⟨l, t, more, e⟩ := lines_cons_eq A r; exact ⟨l, t, more, e, e⟩
  | cons c w ih =>
    obtain ⟨l, t, more, e1, e2⟩ := ih (fun c hc => hw c (by simp [hc]))
    refine ⟨l, t, more, e1, ?_⟩
    simp [lines, hw c (by simp), e2]

/-- the first line starts with the first symbol of the text, unless that ends the line -/
theorem lines_head (r : List α) {l t more} (e : lines A r = (l, t) :: more) :
    ∀ c ∈ l.head?, c ∈ r.head? ∧ A.eol c = false := by
  cases r with
  | nil => simp [lines] at e; simp [e.1.1]
  | cons c r =>
    by_cases h : A.eol c = true
    · simp [lines, h] at e; simp [e.1.1]
    · obtain ⟨l', t', more', e'⟩ := lines_cons_eq A r
      simp [lines, h, e'] at e
      intro x hx
      rw [← e.1.1] at hx
      simp at hx
      subst hx
      simp [h]

theorem cut_ordinary_append (p : α → Bool) (w l : List α) (hw : ∀ c ∈ w, p c = false) :
    ∃ x xs, cut p l = x :: xs ∧ cut p (w ++ l) = (w ++ x) :: xs := by
  induction w with
  | nil => obtain ⟨x, xs, e⟩ := cut_cons_eq p l; exact ⟨x, xs, e, e⟩
  | cons c w ih =>
    obtain ⟨x, xs, e1, e2⟩ := ih (fun c hc => hw c (by simp [hc]))
    exact ⟨x, xs, e1, by simp [cut, hw c (by simp), e2]⟩

theorem words_word (w l : List α) (hne : w ≠ []) (hw : ∀ c ∈ w, A.blank c = false)
    (hl : ∀ c ∈ l.head?, A.blank c = true) : words A (w ++ l) = w :: words A l := by
  obtain ⟨x, xs, e1, e2⟩ := cut_ordinary_append A.blank w l hw
  have hx : x = [] := by
    cases l with
    | nil => simp [cut] at e1; exact e1.1
    | cons c l =>
      have := hl c (by simp)
      simp [cut, this] at e1
      exact e1.1
  subst hx
  simp [words, e1, e2, hne]

theorem tokensOf_word (w r : List α) (hne : w ≠ []) (hw : ∀ c ∈ w, A.ordinary c = true)
    (hr : ∀ c ∈ r.head?, A.ordinary c = false) : tokensOf A (w ++ r) = w :: tokensOf A r := by
  have hw' : ∀ c ∈ w, A.blank c = false ∧ A.eol c = false ∧ A.hash c = false := by
    intro c hc
    have := hw c hc
    simpa [Alphabet.ordinary, and_assoc] using this
  obtain ⟨l, t, more, e1, e2⟩ := lines_ordinary_append A w r (fun c hc => (hw' c hc).2.1)
  have hh := lines_head A r e1
  have hs : stripComment A (w ++ l) = w ++ stripComment A l := by
    unfold stripComment
    rw [List.takeWhile_append_of_pos]
    intro c hc
    simp [(hw' c hc).2.2]
  have hl : ∀ c ∈ (stripComment A l).head?, A.blank c = true := by
    intro c hc
    cases l with
    | nil => simp [stripComment] at hc
    | cons d l =>
      by_cases hd : A.hash d = true
      · simp [stripComment, hd] at hc
      · simp [stripComment, hd] at hc
        subst hc
        have h1 := hh d (by simp)
        have h2 := hr d h1.1
        simp [Alphabet.ordinary, h1.2, hd] at h2
        exact h2
  simp [tokensOf, e1, e2, lineTokens, hs,
    words_word A w _ hne (fun c hc => (hw' c hc).1) hl]

end Verif.Spec
