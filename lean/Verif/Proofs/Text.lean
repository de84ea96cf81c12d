import Verif.Proofs.Sim

/-!
# Consequences of the tokenisation specification
-/

namespace Verif.Spec

variable {α : Type} (A : Alphabet α)

/-- The classes do not overlap. -/
structure Alphabet.Disjoint : Prop where
  blank_eol : ∀ c, A.blank c = true → A.eol c = false
  blank_hash : ∀ c, A.blank c = true → A.hash c = false
  hash_eol : ∀ c, A.hash c = true → A.eol c = false

theorem byteAlphabet_disjoint : byteAlphabet.Disjoint where
  blank_eol := by
    intro c
    simp only [byteAlphabet]
    simp
    rintro ((h | h) | h) <;> subst h <;> decide
  blank_hash := by
    intro c
    simp only [byteAlphabet]
    simp
    rintro ((h | h) | h) <;> subst h <;> decide
  hash_eol := by
    intro c
    simp only [byteAlphabet]
    simp
    rintro h; subst h; decide

theorem charAlphabet_disjoint : charAlphabet.Disjoint where
  blank_eol := by
    intro c
    simp only [charAlphabet]
    simp
    rintro ((h | h) | h) <;> subst h <;> decide
  blank_hash := by
    intro c
    simp only [charAlphabet]
    simp
    rintro ((h | h) | h) <;> subst h <;> decide
  hash_eol := by
    intro c
    simp only [charAlphabet]
    simp
    rintro h; subst h; decide

variable {A}

theorem head_dropWhile {p : α → Bool} {l : List α} : ∀ c ∈ (l.dropWhile p).head?, p c = false := by
  induction l with
  | nil => simp
  | cons d l ih =>
    by_cases hp : p d = true
    · simpa [hp] using ih
    · simp [hp]

theorem mem_takeWhile {p : α → Bool} {l : List α} : ∀ c ∈ l.takeWhile p, p c = true := by
  induction l with
  | nil => simp
  | cons d l ih =>
    by_cases hp : p d = true
    · simpa [hp] using ih
    · simp [hp]

theorem length_dropWhile_le (p : α → Bool) (l : List α) : (l.dropWhile p).length ≤ l.length := by
  induction l with
  | nil => simp
  | cons d l ih =>
    by_cases hp : p d = true
    · simp [hp]; omega
    · simp [hp]

/-- Read a text token by token. -/
theorem text_induction {motive : List α → Prop} (nil : motive [])
    (eol : ∀ c r, A.eol c = true → motive r → motive (c :: r))
    (blank : ∀ c r, A.blank c = true → motive r → motive (c :: r))
    (hash : ∀ c r, A.hash c = true → motive (r.dropWhile fun c => !A.eol c) → motive (c :: r))
    (word : ∀ w r, w ≠ [] → (∀ c ∈ w, A.ordinary c = true) → (∀ c ∈ r.head?, A.ordinary c = false) →
      motive r → motive (w ++ r)) (text : List α) : motive text := by
  induction hn : text.length using Nat.strongRecOn generalizing text with
  | ind n ih =>
    cases text with
    | nil => exact nil
    | cons c r =>
      simp only [List.length_cons] at hn
      by_cases h1 : A.eol c = true
      · exact eol c r h1 (ih r.length (by omega) r rfl)
      · by_cases h2 : A.blank c = true
        · exact blank c r h2 (ih r.length (by omega) r rfl)
        · by_cases h3 : A.hash c = true
          · have := length_dropWhile_le (fun c => !A.eol c) r
            exact hash c r h3 (ih _ (by omega) _ rfl)
          · have h4 : A.ordinary c = true := by simp [Alphabet.ordinary, h1, h2, h3]
            have e := List.takeWhile_append_dropWhile (p := A.ordinary) (l := c :: r)
            rw [← e]
            have := length_dropWhile_le A.ordinary r
            refine word _ _ (by simp [h4]) mem_takeWhile head_dropWhile
              (ih _ ?_ _ rfl)
            simp only [List.dropWhile_cons, h4, if_true]
            omega

theorem length_tokensOf_le (hd : A.Disjoint) (text : List α) :
    (tokensOf A text).length ≤ text.length := by
  induction text using text_induction (A := A) with
  | nil => simp [tokensOf_nil]
  | eol c r h ih => rw [tokensOf_eol A h]; simpa using ih
  | blank c r h ih =>
    rw [tokensOf_blank A h (hd.blank_eol c h) (hd.blank_hash c h)]; simp; omega
  | hash c r h ih =>
    rw [tokensOf_hash A h (hd.hash_eol c h)]
    have := length_dropWhile_le (fun c => !A.eol c) r
    simp; omega
  | word w r h1 h2 h3 ih =>
    rw [tokensOf_word A w r h1 h2 h3]
    have := List.length_pos_iff.mpr h1
    simp; omega

theorem length_tokens_le (text : Bytes) : (tokens text).length ≤ text.length :=
  length_tokensOf_le byteAlphabet_disjoint text

end Verif.Spec

namespace Verif

/-- The relation the other way round. -/
theorem Bisim.symm {σ₁ σ₂ : Type} [TokStream σ₁] [TokStream σ₂] {R : σ₁ → σ₂ → Prop} (h : Bisim R) :
    Bisim fun b a => R a b where
  peek b a hr := ⟨(h.peek a b hr).1.symm, (h.peek a b hr).2⟩
  next b a hr := ⟨(h.next a b hr).1.symm, (h.next a b hr).2⟩

end Verif
