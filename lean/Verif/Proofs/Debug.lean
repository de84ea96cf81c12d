import Verif.Model.Debug
import Verif.Proofs.Text2
import Verif.Proofs.Numbers

/-!
# Reading back a `Debug` text

`Link v w P`: if `v` and `w` are followed by something that ends a value and the texts are equal, then so are the
followers, and `P`.
-/

namespace Verif.Debug

open Verif Verif.Spec

/-- The characters that can follow a value. -/
def stops : Text := [',', ')', ' ', '}', ']']

/-- What follows a value. -/
def Stop (s : Text) : Prop := ∀ c ∈ s.head?, c ∈ stops

/-- What follows the last of several values. -/
def End (s : Text) : Prop := ∃ c r, s = c :: r ∧ (c = ')' ∨ c = ' ' ∨ c = ']')

theorem End.stop {s : Text} (h : End s) : Stop s := by
  obtain ⟨c, r, rfl, h⟩ := h
  intro d hd
  obtain rfl : c = d := by simpa using hd
  rcases h with rfl | rfl | rfl <;> decide

theorem stop_comma (s : Text) : Stop (c!", " ++ s) := by
  intro d hd
  obtain rfl : ',' = d := by simpa using hd
  decide

def Link (v w : Text) (P : Prop) : Prop := ∀ s t, Stop s → Stop t → v ++ s = w ++ t → P ∧ s = t

/-- `Link` for the texts of several values. -/
def Links (v w : List Text) (P : Prop) : Prop := ∀ s t, End s → End t → join v ++ s = join w ++ t → P ∧ s = t

theorem Link.imp {v w : Text} {P Q : Prop} (h : Link v w P) (f : P → Q) : Link v w Q := fun s t hs ht e =>
  (h s t hs ht e).imp_left f

theorem Links.one {v w : Text} {P : Prop} (h : Link v w P) : Links [v] [w] P := fun s t hs ht e =>
  h s t hs.stop ht.stop e

theorem Links.cons {v w a b : Text} {r r' : List Text} {P Q : Prop} (h : Link v w P) (h' : Links (a :: r) (b :: r') Q) :
    Links (v :: a :: r) (w :: b :: r') (P ∧ Q) := by
  intro s t hs ht e
  simp only [join, List.append_assoc] at e
  obtain ⟨hp, e⟩ := h _ _ (stop_comma _) (stop_comma _) e
  obtain ⟨hq, e⟩ := h' s t hs ht (List.append_cancel_left e)
  exact ⟨⟨hp, hq⟩, e⟩

/-- `Link` for the texts of fields. -/
def Fields (f g : List (Text × Text)) (P : Prop) : Prop :=
  Links (f.map fun f => f.1 ++ c!": " ++ f.2) (g.map fun f => f.1 ++ c!": " ++ f.2) P

theorem link_field {n v w : Text} {P : Prop} (h : Link v w P) : Link (n ++ c!": " ++ v) (n ++ c!": " ++ w) P := by
  intro s t hs ht e
  rw [List.append_assoc, List.append_assoc _ w] at e
  exact h s t hs ht (List.append_cancel_left e)

theorem Fields.one {n v w : Text} {P : Prop} (h : Link v w P) : Fields [(n, v)] [(n, w)] P := Links.one (link_field h)

theorem Fields.cons {n v w : Text} {a b : Text × Text} {r r' : List (Text × Text)} {P Q : Prop} (h : Link v w P)
    (h' : Fields (a :: r) (b :: r') Q) : Fields ((n, v) :: a :: r) ((n, w) :: b :: r') (P ∧ Q) :=
  Links.cons (link_field h) h'

theorem link_struct {name : Text} {f g : List (Text × Text)} {P : Prop} (h : Fields f g P) :
    Link (struct name f) (struct name g) P := by
  intro s t hs ht e
  unfold struct at e
  rw [List.append_assoc, List.append_assoc, List.append_assoc _ _ t, List.append_assoc _ _ (_ ++ t)] at e
  obtain ⟨hp, e⟩ := h _ _ ⟨' ', _, rfl, .inr (.inl rfl)⟩ ⟨' ', _, rfl, .inr (.inl rfl)⟩ (List.append_cancel_left e)
  exact ⟨hp, (List.cons.inj (List.cons.inj e).2).2⟩

/-- Two texts up to a character that does not occur in them. -/
theorem split_at {α : Type} {p : α} {a b s t : List α} (ha : p ∉ a) (hb : p ∉ b) (h : a ++ p :: s = b ++ p :: t) : a = b ∧ s = t := by
  induction a generalizing b with
  | nil =>
    cases b with
    | nil => exact ⟨rfl, (List.cons.inj h).2⟩
    | cons c b => exact absurd (List.cons.inj h).1 (fun e => hb (e ▸ List.mem_cons_self))
  | cons x a ih =>
    cases b with
    | nil => exact absurd (List.cons.inj h).1 (fun e => ha (e ▸ List.mem_cons_self))
    | cons c b =>
      obtain ⟨rfl, h'⟩ := List.cons.inj h
      obtain ⟨rfl, rfl⟩ := ih (fun hx => ha (List.mem_cons_of_mem _ hx)) (fun hx => hb (List.mem_cons_of_mem _ hx)) h'
      exact ⟨rfl, rfl⟩

theorem link_tuple {n m : Text} {v w : List Text} {P : Prop} (hn : '(' ∉ n) (hm : '(' ∉ m)
    (h : n = m → Links v w P) : Link (tuple n v) (tuple m w) P := by
  intro s t hs ht e
  unfold tuple at e
  simp only [List.append_assoc, List.cons_append, List.nil_append] at e
  obtain ⟨e1, e⟩ := split_at hn hm e
  obtain ⟨hp, e⟩ := h e1 _ _ ⟨')', _, rfl, .inl rfl⟩ ⟨')', _, rfl, .inl rfl⟩ e
  exact ⟨hp, (List.cons.inj e).2⟩

/-- The texts that begin a value. -/
def Starts (v : Text) : Prop := ∃ c r, v = c :: r ∧ c ≠ ']'

/-- The values with `Ok` can be read back from their texts. -/
structure Code {α : Type} (value : α → Text) (Ok : α → Prop) : Prop where
  link {a b} : Ok a → Ok b → Link (value a) (value b) (a = b)
  starts {a} : Ok a → Starts (value a)

theorem Code.injective {α : Type} {value : α → Text} {Ok : α → Prop} (h : Code value Ok) {a b : α} (ha : Ok a) (hb : Ok b)
    (e : value a = value b) : a = b :=
  (h.link ha hb [] [] (by rintro _ ⟨⟩) (by rintro _ ⟨⟩) (by rw [e])).1

theorem starts_join {v : Text} (h : Starts v) (r : List Text) : Starts (join (v :: r)) := by
  obtain ⟨c, t, rfl, h⟩ := h
  cases r with
  | nil => exact ⟨c, t, rfl, h⟩
  | cons w r => exact ⟨c, _, rfl, h⟩

theorem code_vec {α : Type} {value : α → Text} {Ok : α → Prop} (h : Code value Ok) :
    Code (vec value) (fun l => ∀ a ∈ l, Ok a) := by
  refine ⟨?_, fun _ => ⟨_, _, rfl, by decide⟩⟩
  have key : ∀ (a b : List α), (∀ x ∈ a, Ok x) → (∀ x ∈ b, Ok x) → ∀ s t : Text,
      join (a.map value) ++ ']' :: s = join (b.map value) ++ ']' :: t → a = b ∧ s = t := by
    intro a
    induction a with
    | nil =>
      intro b _ hb s t e
      cases b with
      | nil => exact ⟨rfl, (List.cons.inj e).2⟩
      | cons y b =>
        obtain ⟨c, r, e', hc⟩ := starts_join (h.starts (hb y List.mem_cons_self)) (b.map value)
        rw [List.map_cons, e'] at e
        exact absurd (List.cons.inj e).1.symm hc
    | cons x a ih =>
      intro b ha hb s t e
      cases b with
      | nil =>
        obtain ⟨c, r, e', hc⟩ := starts_join (h.starts (ha x List.mem_cons_self)) (a.map value)
        rw [List.map_cons, e'] at e
        exact absurd (List.cons.inj e).1 hc
      | cons y b =>
        have hx := h.link (ha x List.mem_cons_self) (hb y List.mem_cons_self)
        have stop : ∀ s : Text, Stop (']' :: s) := fun s => End.stop ⟨']', s, rfl, .inr (.inr rfl)⟩
        cases a with
        | nil =>
          cases b with
          | nil =>
            obtain ⟨rfl, e'⟩ := hx _ _ (stop s) (stop t) e
            exact ⟨rfl, (List.cons.inj e').2⟩
          | cons z b =>
            simp only [List.map_cons, List.map_nil, join, List.append_assoc] at e
            obtain ⟨-, e⟩ := hx _ _ (stop s) (stop_comma _) e
            exact absurd (List.cons.inj e).1 (by decide)
        | cons z a =>
          cases b with
          | nil =>
            simp only [List.map_cons, List.map_nil, join, List.append_assoc] at e
            obtain ⟨-, e⟩ := hx _ _ (stop_comma _) (stop t) e
            exact absurd (List.cons.inj e).1 (by decide)
          | cons y' b =>
            simp only [List.map_cons, join, List.append_assoc] at e
            obtain ⟨rfl, e'⟩ := hx _ _ (stop_comma _) (stop_comma _) e
            obtain ⟨e'', rfl⟩ := ih (y' :: b) (fun x hx => ha x (List.mem_cons_of_mem _ hx))
              (fun x hx => hb x (List.mem_cons_of_mem _ hx)) s t (List.append_cancel_left e')
            exact ⟨by rw [e''], rfl⟩
  intro a b ha hb s t _ _ e
  unfold vec at e
  simp only [List.append_assoc, List.cons_append, List.nil_append] at e
  exact key a b ha hb s t (List.cons.inj e).2

theorem code_option {α : Type} {value : α → Text} {Ok : α → Prop} (h : Code value Ok) :
    Code (option value) (fun l => ∀ a ∈ l, Ok a) := by
  constructor
  · intro a b ha hb
    cases a with
    | none =>
      cases b with
      | none => exact fun s t _ _ e => ⟨rfl, List.append_cancel_left e⟩
      | some b => intro s t _ _ e; exact absurd (List.cons.inj e).1 (by decide)
    | some a =>
      cases b with
      | none => intro s t _ _ e; exact absurd (List.cons.inj e).1 (by decide)
      | some b =>
        exact link_tuple (by decide) (by decide) fun _ => .one ((h.link (ha a rfl) (hb b rfl)).imp (congrArg some))
  · intro a _
    cases a
    · exact ⟨_, _, rfl, by decide⟩
    · exact ⟨_, _, rfl, by decide⟩

/-- No character of a word ends a value. -/
theorem link_word {v w : Text} (hv : ∀ c ∈ v, c ∉ stops) (hw : ∀ c ∈ w, c ∉ stops) : Link v w (v = w) := by
  intro s t hs ht e
  induction v generalizing w with
  | nil =>
    cases w with
    | nil => exact ⟨rfl, e⟩
    | cons c w =>
      have e : s = c :: (w ++ t) := e
      exact absurd (hs c (by rw [e]; rfl)) (hw c List.mem_cons_self)
  | cons x v ih =>
    cases w with
    | nil =>
      have e : x :: (v ++ s) = t := e
      exact absurd (ht x (by rw [← e]; rfl)) (hv x List.mem_cons_self)
    | cons c w =>
      obtain ⟨rfl, e1⟩ := List.cons.inj e
      obtain ⟨rfl, e2⟩ := ih (fun c hc => hv c (List.mem_cons_of_mem _ hc)) (fun c hc => hw c (List.mem_cons_of_mem _ hc)) e1
      exact ⟨rfl, e2⟩

theorem code_word {α : Type} {value : α → Text} (h : ∀ a, value a ≠ [] ∧ ∀ c ∈ value a, c ∉ stops)
    (inj : ∀ a b, value a = value b → a = b) : Code value (fun _ => True) := by
  refine ⟨fun {a b} _ _ => (link_word (h a).2 (h b).2).imp (inj a b), fun {a} _ => ?_⟩
  obtain ⟨h1, h2⟩ := h a
  cases e : value a with
  | nil => exact absurd e h1
  | cons c r =>
    refine ⟨c, r, rfl, ?_⟩
    rintro rfl
    exact h2 ']' (by rw [e]; exact List.mem_cons_self) (by decide)

/-! ## Bytes -/

theorem ofNat_byte (c : UInt8) : (Char.ofNat c.toNat).toNat = c.toNat := by
  have hv : c.toNat.isValidChar := Or.inl (by have := c.toNat_lt; omega)
  have : (Char.ofNat c.toNat) = Char.ofNatAux c.toNat hv := by
    unfold Char.ofNat
    rw [dif_pos hv]
  rw [this]
  rfl

theorem ascii_injective {a b : Bytes} (h : ascii a = ascii b) : a = b := by
  induction a generalizing b with
  | nil =>
    cases b with
    | nil => rfl
    | cons y b => cases h
  | cons x a ih =>
    cases b with
    | nil => cases h
    | cons y b =>
      obtain ⟨e, h⟩ := List.cons.inj h
      have := congrArg Char.toNat e
      rw [ofNat_byte, ofNat_byte] at this
      rw [UInt8.toNat_inj.mp this, ih h]

theorem ascii_stops {a : Bytes} (h : ∀ c ∈ a, c ≠ 44 ∧ c ≠ 41 ∧ c ≠ 32 ∧ c ≠ 125 ∧ c ≠ 93) : ∀ c ∈ ascii a, c ∉ stops := by
  intro c hc hs
  obtain ⟨x, hx, rfl⟩ := List.mem_map.mp hc
  obtain ⟨h1, h2, h3, h4, h5⟩ := h x hx
  have key : ∀ k : Char, Char.ofNat x.toNat = k → x.toNat = k.toNat := fun k e => by rw [← e, ofNat_byte]
  simp only [stops, List.mem_cons, List.not_mem_nil, or_false] at hs
  rcases hs with e | e | e | e | e
  · exact h1 (UInt8.toNat_inj.mp (key _ e))
  · exact h2 (UInt8.toNat_inj.mp (key _ e))
  · exact h3 (UInt8.toNat_inj.mp (key _ e))
  · exact h4 (UInt8.toNat_inj.mp (key _ e))
  · exact h5 (UInt8.toNat_inj.mp (key _ e))

theorem code_usize : Code usize (fun _ => True) := by
  refine code_word (fun n => ?_) (fun a b h => ?_)
  · obtain ⟨h1, h2, -⟩ := showNat_spec n
    refine ⟨by simpa [usize, ascii] using h1, ascii_stops fun c hc => ?_⟩
    have := h2 c hc
    simp only [isDigit, decide_eq_true_eq] at this
    refine ⟨?_, ?_, ?_, ?_, ?_⟩ <;> (rintro rfl; revert this; decide)
  · have := congrArg digitsVal (ascii_injective h)
    rwa [(showNat_spec a).2.2, (showNat_spec b).2.2] at this

/-! ## Strings -/

theorem digitChar_injective {a b : Nat} (ha : a < 16) (hb : b < 16) (h : a.digitChar = b.digitChar) : a = b := by
  have : ∀ a < 16, ∀ b < 16, a.digitChar = b.digitChar → a = b := by decide +kernel
  exact this a ha b hb h

theorem digitChar_brace {a : Nat} (ha : a < 16) : a.digitChar ≠ '}' := by
  have : ∀ a < 16, a.digitChar ≠ '}' := by decide +kernel
  exact this a ha

theorem hex_injective : ∀ a b : Nat, Nat.toDigits 16 a = Nat.toDigits 16 b → a = b := by
  intro a
  induction a using Nat.strong_induction_on with
  | _ a ih =>
    intro b h
    rw [Nat.toDigits_eq_if (by decide), Nat.toDigits_eq_if (n := b) (by decide)] at h
    have pos : ∀ n, (Nat.toDigits 16 n).length ≠ 0 := by
      intro n
      rw [Nat.toDigits_eq_if (by decide)]
      split <;> simp
    split at h
    · rename_i ha
      split at h
      · rename_i hb
        exact digitChar_injective ha hb (List.cons.inj h).1
      · have := congrArg List.length h
        have := pos (b / 16)
        simp at *
    · rename_i ha
      split at h
      · have := congrArg List.length h
        have := pos (a / 16)
        simp at *
      · obtain ⟨h1, h2⟩ := List.append_inj' h rfl
        have e1 := ih (a / 16) (by omega) (b / 16) h1
        have e2 := digitChar_injective (Nat.mod_lt _ (by decide)) (Nat.mod_lt _ (by decide)) (List.cons.inj h2).1
        omega

theorem hex_brace : ∀ a : Nat, '}' ∉ Nat.toDigits 16 a := by
  intro a
  induction a using Nat.strong_induction_on with
  | _ a ih =>
    rw [Nat.toDigits_eq_if (by decide)]
    split
    · rename_i h
      simp [(digitChar_brace h).symm]
    · simp only [List.mem_append, List.mem_singleton, not_or]
      exact ⟨ih _ (by omega), (digitChar_brace (Nat.mod_lt _ (by decide))).symm⟩

/-- The characters with an escape sequence of their own, and the second characters of these. -/
def special : List (Char × Char) :=
  [('\x00', '0'), ('\t', 't'), ('\r', 'r'), ('\n', 'n'), ('\\', '\\'), ('"', '"')]

theorem escape_cases (plain : Char → Bool) (c : Char) :
    (∃ x, (c, x) ∈ special ∧ escape plain c = ['\\', x]) ∨ (c ≠ '\\' ∧ c ≠ '"' ∧ escape plain c = [c]) ∨
      escape plain c = '\\' :: 'u' :: '{' :: (Nat.toDigits 16 c.toNat ++ ['}']) := by
  unfold escape
  split
  · subst c; exact .inl ⟨'0', by decide, rfl⟩
  split
  · subst c; exact .inl ⟨'t', by decide, rfl⟩
  split
  · subst c; exact .inl ⟨'r', by decide, rfl⟩
  split
  · subst c; exact .inl ⟨'n', by decide, rfl⟩
  split
  · subst c; exact .inl ⟨'\\', by decide, rfl⟩
  split
  · subst c; exact .inl ⟨'"', by decide, rfl⟩
  split
  · exact .inr (.inl ⟨by assumption, by assumption, rfl⟩)
  · exact .inr (.inr rfl)

theorem special_unique : ∀ p ∈ special, ∀ q ∈ special, p.2 = q.2 → p = q := by decide

theorem special_u : ∀ p ∈ special, p.2 ≠ 'u' := by decide

theorem escape_prefix (plain : Char → Bool) {c d : Char} {s t : Text}
    (h : escape plain c ++ s = escape plain d ++ t) : c = d ∧ s = t := by
  rcases escape_cases plain c with ⟨x, hx, ec⟩ | ⟨hc1, hc2, ec⟩ | ec <;>
    rcases escape_cases plain d with ⟨y, hy, ed⟩ | ⟨hd1, hd2, ed⟩ | ed <;>
    rw [ec, ed] at h <;> simp only [List.cons_append, List.nil_append, List.append_assoc] at h
  · obtain ⟨-, h⟩ := List.cons.inj h
    obtain ⟨e, h⟩ := List.cons.inj h
    exact ⟨(Prod.mk.inj (special_unique _ hx _ hy e)).1, h⟩
  · exact absurd (List.cons.inj h).1.symm hd1
  · exact absurd (List.cons.inj (List.cons.inj h).2).1 (special_u _ hx)
  · exact absurd (List.cons.inj h).1 hc1
  · exact List.cons.inj h
  · exact absurd (List.cons.inj h).1 hc1
  · exact absurd (List.cons.inj (List.cons.inj h).2).1.symm (special_u _ hy)
  · exact absurd (List.cons.inj h).1.symm hd1
  · obtain ⟨-, h⟩ := List.cons.inj h
    obtain ⟨-, h⟩ := List.cons.inj h
    obtain ⟨-, h⟩ := List.cons.inj h
    obtain ⟨e, h⟩ := split_at (hex_brace _) (hex_brace _) h
    exact ⟨Char.toNat_inj.mp (hex_injective _ _ e), h⟩

theorem escape_start (plain : Char → Bool) (c : Char) : ∃ x r, escape plain c = x :: r ∧ x ≠ '"' := by
  rcases escape_cases plain c with ⟨x, -, e⟩ | ⟨-, h, e⟩ | e
  · exact ⟨_, _, e, by decide⟩
  · exact ⟨_, _, e, h⟩
  · exact ⟨_, _, e, by decide⟩

theorem code_quoted (plain : Char → Bool) : Code (quoted plain) (fun _ => True) := by
  refine ⟨fun {a b} _ _ => ?_, fun _ => ⟨_, _, rfl, by decide⟩⟩
  intro s t _ _ e
  unfold quoted at e
  simp only [List.append_assoc, List.cons_append, List.nil_append] at e
  replace e := (List.cons.inj e).2
  induction a generalizing b with
  | nil =>
    cases b with
    | nil => exact ⟨rfl, (List.cons.inj e).2⟩
    | cons d b =>
      obtain ⟨x, r, ed, hx⟩ := escape_start plain d
      rw [List.flatMap_cons, ed] at e
      exact absurd (List.cons.inj e).1.symm hx
  | cons c a ih =>
    cases b with
    | nil =>
      obtain ⟨x, r, ec, hx⟩ := escape_start plain c
      rw [List.flatMap_cons, ec] at e
      exact absurd (List.cons.inj e).1 hx
    | cons d b =>
      rw [List.flatMap_cons, List.flatMap_cons, List.append_assoc, List.append_assoc] at e
      obtain ⟨rfl, e'⟩ := escape_prefix plain e
      obtain ⟨rfl, rfl⟩ := ih e'
      exact ⟨rfl, rfl⟩

/-- The encoding of a string of characters. -/
def Utf8 (b : Bytes) : Prop := ∃ cs, b = encode cs

theorem chars_encode (cs : List Char) : chars (encode cs) = cs := by
  have : (encode cs).toByteArray = cs.utf8Encode := rfl
  rw [chars, this, List.utf8Decode?_utf8Encode]
  rfl

theorem code_string (plain : Char → Bool) : Code (string plain) Utf8 := by
  refine ⟨?_, fun _ => (code_quoted plain).starts trivial⟩
  rintro a b ⟨cs, rfl⟩ ⟨ds, rfl⟩
  unfold string
  rw [chars_encode, chars_encode]
  exact ((code_quoted plain).link trivial trivial).imp (congrArg encode)

end Verif.Debug
