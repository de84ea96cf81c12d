import Verif.Proofs.Yields
import Verif.Spec.Obj

/-!
# OBJ numbers and references: the code against the specification
-/

namespace Verif.Obj

open Verif Verif.Spec.Obj

/-- The index ranges of an object. -/
def rng (lo hi : Counts) : Ranges := ⟨(lo.v, hi.v), (lo.vt, hi.vt), (lo.vn, hi.vn)⟩

theorem wrapIsize_eq (x : Int) : wrapIsize x = wrap64 x := rfl

theorem wrap64_id {x : Int} (h1 : isizeMin ≤ x) (h2 : x ≤ isizeMax) : wrap64 x = x := by
  simp only [isizeMin, isizeMax] at h1 h2
  simp only [wrap64]
  omega

theorem parseIsize_range {t : Tok} {k : Int} (h : parseIsize t = some k) :
    isizeMin ≤ k ∧ k ≤ isizeMax := by
  simp only [parseIsize] at h
  split at h
  · cases h
  · simp only [Option.ite_none_right_eq_some, Option.some.injEq] at h
    rw [← h.2]
    exact h.1

theorem calc_in (cfg : Cfg) {lo hi k : Nat} (h1 : lo < k) (h2 : k ≤ hi) (toks : List Tok) :
    Yields (calculate_index cfg (lo, hi) (k : Int)) toks (.ok (k - 1 - lo)) toks := by
  unfold calculate_index
  refine Yields.bind (a := (k : Int) - 1) (mid := toks) ?_ ?_
  · refine Yields.ite_neg (by omega) ?_
    exact Yields.pure _ _
  · refine Yields.ite_pos (by simp only; omega) ?_
    refine Yields.ite_neg (by omega) ?_
    have : ((k : Int) - 1 - (lo : Int)).toNat = k - 1 - lo := by omega
    simp only [this]
    exact Yields.pure _ _

theorem calc_out (cfg : Cfg) {lo hi : Nat} {k : Int} (hk : isizeMin ≤ k) (hhi : hi < 2 ^ 63)
    (h1 : ¬ ((lo : Int) < k ∧ k ≤ hi)) (h2 : ¬ Overflows cfg hi k) (toks : List Tok) :
    Yields (calculate_index cfg (lo, hi) k) toks
      (.err .VTNIndexOutOfRange (rangeText lo hi (shownIndex hi k))) toks := by
  unfold calculate_index
  simp only [isizeMin] at hk
  refine Yields.bind (a := shownIndex hi k) (mid := toks) ?_ ?_
  · by_cases h0 : k ≤ 0
    · refine Yields.ite_pos h0 ?_
      simp only [shownIndex, h0, if_true]
      by_cases hx : (hi : Int) - k ≤ isizeMax
      · have hm : isizeMin ≤ (hi : Int) - k := by simp only [isizeMin]; omega
        rw [wrap64_id hm hx]
        exact Yields.ite_pos ⟨hm, hx⟩ (Yields.pure _ _)
      · refine Yields.ite_neg (fun h => hx h.2) ?_
        refine Yields.ite_neg ?_ (Yields.pure _ _)
        intro hc
        exact h2 ⟨hc, h0, by omega⟩
    · refine Yields.ite_neg h0 ?_
      simp only [shownIndex, h0, if_false]
      exact Yields.pure _ _
  · refine Yields.ite_neg ?_ (Yields.error _ _ _)
    simp only [shownIndex, wrap64]
    split <;> omega

theorem calc_panic {cfg : Cfg} {lo hi : Nat} {k : Int} (h : Overflows cfg hi k) (toks : List Tok) :
    Yields (calculate_index cfg (lo, hi) k) toks (.panic .indexSubOverflow) toks := by
  obtain ⟨h1, h2, h3⟩ := h
  unfold calculate_index
  refine Yields.bind_panic ?_
  refine Yields.ite_pos h2 ?_
  refine Yields.ite_neg (by omega) ?_
  exact Yields.ite_pos h1 (Yields.panic _ _)

/-! ## Pieces -/

theorem num_total (cfg : Cfg) (lo hi : Nat) (t : Tok) :
    (∃ k, NumTok lo hi t k) ∨ (∃ k m, NumErr cfg lo hi t k m) ∨ NumPanic cfg hi t := by
  cases h : parseIsize t with
  | none => exact .inr (.inl ⟨_, _, .notInt h⟩)
  | some k =>
    by_cases h1 : (lo : Int) < k ∧ k ≤ hi
    · refine .inl ⟨k.toNat, ?_, by omega, by omega⟩
      rw [h]; congr 1; omega
    · by_cases h2 : Overflows cfg hi k
      · exact .inr (.inr ⟨k, h, h2⟩)
      · exact .inr (.inl ⟨_, _, .range k h h1 h2⟩)

theorem parseIsize_nil : parseIsize [] = none := by decide

theorem parseIsize_nl : parseIsize nl = none := by decide

theorem numTok_ne_nl {lo hi : Nat} {t : Tok} {k : Nat} (h : NumTok lo hi t k) : t ≠ nl := by
  rintro rfl
  have := h.1
  rw [parseIsize_nl] at this
  cases this

theorem numPanic_ne_nl {cfg : Cfg} {hi : Nat} {t : Tok} (h : NumPanic cfg hi t) : t ≠ nl := by
  rintro rfl
  obtain ⟨k, h, _⟩ := h
  rw [parseIsize_nl] at h
  cases h

theorem piece_total (cfg : Cfg) (lo hi : Nat) (p : Bytes) :
    (∃ o, PieceOk lo hi p o) ∨ (p ≠ [] ∧ ∃ k m, NumErr cfg lo hi p k m) ∨
      (p ≠ [] ∧ NumPanic cfg hi p) := by
  by_cases hp : p = []
  · exact .inl ⟨none, .inl ⟨hp, rfl⟩⟩
  · rcases num_total cfg lo hi p with ⟨k, h⟩ | h | h
    · exact .inl ⟨some k, .inr ⟨k, hp, h, rfl⟩⟩
    · exact .inr (.inl ⟨hp, h⟩)
    · exact .inr (.inr ⟨hp, h⟩)

theorem split_ok (cfg : Cfg) {lo hi : Nat} {p : Option Bytes} {o : Option Nat}
    (h : PieceOk lo hi (p.getD []) o) (toks : List Tok) :
    Yields (process_next_split cfg p (lo, hi)) toks (.ok (o.map (· - 1 - lo))) toks := by
  cases p with
  | none =>
    rcases h with ⟨_, rfl⟩ | ⟨k, h, _⟩
    · exact Yields.pure _ _
    · simp at h
  | some p =>
    simp only [Option.getD_some] at h
    simp only [process_next_split]
    unfold process_split
    rcases h with ⟨rfl, rfl⟩ | ⟨k, h, hk, rfl⟩
    · exact Yields.ite_neg (by simp) (Yields.pure _ _)
    · refine Yields.ite_pos h ?_
      refine Yields.bind (a := (k : Int)) (mid := toks) ?_ ?_
      · rw [hk.1]; exact Yields.pure _ _
      · exact Yields.bind (calc_in cfg hk.2.1 hk.2.2 toks) (Yields.pure _ _)

theorem split_err {cfg : Cfg} {lo hi : Nat} (hhi : hi < 2 ^ 63) {p : Option Bytes} {k m}
    (h0 : p.getD [] ≠ []) (h : NumErr cfg lo hi (p.getD []) k m) (toks : List Tok) :
    Yields (process_next_split cfg p (lo, hi)) toks (.err k m) toks := by
  cases p with
  | none => simp at h0
  | some p =>
    simp only [Option.getD_some] at h h0
    simp only [process_next_split]
    unfold process_split
    refine Yields.ite_pos h0 ?_
    cases h with
    | notInt h =>
      refine Yields.bind_err ?_
      rw [h]; exact Yields.error _ _ _
    | range k h h1 h2 =>
      refine Yields.bind (a := k) (mid := toks) ?_ ?_
      · rw [h]; exact Yields.pure _ _
      · exact Yields.bind_err (calc_out cfg (parseIsize_range h).1 hhi h1 h2 toks)

theorem split_panic {cfg : Cfg} {lo hi : Nat} {p : Option Bytes}
    (h0 : p.getD [] ≠ []) (h : NumPanic cfg hi (p.getD [])) (toks : List Tok) :
    Yields (process_next_split cfg p (lo, hi)) toks (.panic .indexSubOverflow) toks := by
  cases p with
  | none => simp at h0
  | some p =>
    simp only [Option.getD_some] at h h0
    simp only [process_next_split]
    unfold process_split
    refine Yields.ite_pos h0 ?_
    obtain ⟨k, h, h1⟩ := h
    refine Yields.bind (a := k) (mid := toks) ?_ ?_
    · rw [h]; exact Yields.pure _ _
    · exact Yields.bind_panic (calc_panic h1 toks)

/-! ## References -/

theorem next_string_cons (t : Tok) (rest : List Tok) :
    Yields next_string (t :: rest) (.ok t) rest := by
  unfold next_string
  exact Yields.bind (Yields.next_cons _ _) (Yields.pure _ _)

theorem next_string_nil : Yields next_string [] (.err .EndOfFile eofText) [] := by
  unfold next_string
  exact Yields.bind Yields.next_nil (Yields.error _ _ _)

theorem expect_tag_cons (t : Tok) (rest : List Tok) :
    Yields (expect_tag t) (t :: rest) (.ok ()) rest := by
  unfold expect_tag
  refine Yields.bind (Yields.next_cons _ _) ?_
  exact Yields.ite_neg (by simp) (Yields.pure _ _)

/-- Every token is a reference, an error or a panic. -/
theorem ref_total (cfg : Cfg) (lo hi : Counts) (t : Tok) :
    (∃ r, RefTok lo hi t r) ∨ (∃ k m, RefErr cfg lo hi t k m) ∨ RefPanic cfg lo hi t := by
  rcases piece_total cfg lo.v hi.v (piece t 0) with ⟨o, h⟩ | ⟨h0, k, m, h⟩ | ⟨h0, h⟩
  · rcases piece_total cfg lo.vt hi.vt (piece t 1) with ⟨o', h'⟩ | ⟨h0', k, m, h'⟩ | ⟨h0', h'⟩
    · rcases piece_total cfg lo.vn hi.vn (piece t 2) with ⟨o'', h''⟩ | ⟨h0'', k, m, h''⟩ | ⟨h0'', h''⟩
      · by_cases h3 : 3 < (pieces t).length
        · exact .inr (.inl ⟨_, _, .shape h h' h'' (.inr h3)⟩)
        · cases o with
          | none => exact .inr (.inl ⟨_, _, .shape h h' h'' (.inl rfl)⟩)
          | some v => exact .inl ⟨⟨v, o', o''⟩, by omega, h, h', h''⟩
      · exact .inr (.inl ⟨_, _, .vn h h' h0'' h''⟩)
      · exact .inr (.inr (.vn h h' h0'' h''))
    · exact .inr (.inl ⟨_, _, .vt h h0' h'⟩)
    · exact .inr (.inr (.vt h h0' h'))
  · exact .inr (.inl ⟨_, _, .v h0 h⟩)
  · exact .inr (.inr (.v h0 h))

/-- The counters are small enough for machine arithmetic to be exact. -/
def Small (c : Counts) : Prop := c.v < 2 ^ 63 ∧ c.vt < 2 ^ 63 ∧ c.vn < 2 ^ 63

theorem vtn_ok (cfg : Cfg) {lo hi : Counts} {t : Tok} {r : Ref} (h : RefTok lo hi t r)
    (rest : List Tok) :
    Yields (parse_vtn_index cfg (rng lo hi)) (t :: rest) (.ok (r.resolve lo)) rest := by
  unfold parse_vtn_index
  refine Yields.bind (next_string_cons _ _) ?_
  refine Yields.bind (split_ok cfg h.v rest) ?_
  refine Yields.bind (split_ok cfg h.vt rest) ?_
  refine Yields.bind (split_ok cfg h.vn rest) ?_
  refine Yields.ite_neg ?_ ?_
  · have := h.few
    simp only [pieces] at this
    simp only [Option.map_some, Option.isNone_some, Bool.false_eq_true, false_or]
    rw [List.getElem?_eq_none (by omega)]
    simp
  · obtain ⟨v, vt, vn⟩ := r
    cases vt <;> cases vn <;> exact Yields.pure _ _

theorem vtn_err {cfg : Cfg} {lo hi : Counts} (hs : Small hi) {t : Tok} {k m}
    (h : RefErr cfg lo hi t k m) (rest : List Tok) :
    Yields (parse_vtn_index cfg (rng lo hi)) (t :: rest) (.err k m) rest := by
  unfold parse_vtn_index
  refine Yields.bind (next_string_cons _ _) ?_
  cases h with
  | v h0 h => exact Yields.bind_err (split_err hs.1 h0 h rest)
  | vt h1 h0 h =>
    refine Yields.bind (split_ok cfg h1 rest) ?_
    exact Yields.bind_err (split_err hs.2.1 h0 h rest)
  | vn h1 h2 h0 h =>
    refine Yields.bind (split_ok cfg h1 rest) ?_
    refine Yields.bind (split_ok cfg h2 rest) ?_
    exact Yields.bind_err (split_err hs.2.2 h0 h rest)
  | @shape o o' o'' h1 h2 h3 h =>
    refine Yields.bind (split_ok cfg h1 rest) ?_
    refine Yields.bind (split_ok cfg h2 rest) ?_
    refine Yields.bind (split_ok cfg h3 rest) ?_
    refine Yields.ite_pos ?_ (Yields.error _ _ _)
    rcases h with rfl | h
    · exact .inl rfl
    · right
      simp only [pieces] at h
      simp [h]

theorem vtn_panic {cfg : Cfg} {lo hi : Counts} {t : Tok}
    (h : RefPanic cfg lo hi t) (rest : List Tok) :
    Yields (parse_vtn_index cfg (rng lo hi)) (t :: rest) (.panic .indexSubOverflow) rest := by
  unfold parse_vtn_index
  refine Yields.bind (next_string_cons _ _) ?_
  cases h with
  | v h0 h => exact Yields.bind_panic (split_panic h0 h rest)
  | vt h1 h0 h =>
    refine Yields.bind (split_ok cfg h1 rest) ?_
    exact Yields.bind_panic (split_panic h0 h rest)
  | vn h1 h2 h0 h =>
    refine Yields.bind (split_ok cfg h1 rest) ?_
    refine Yields.bind (split_ok cfg h2 rest) ?_
    exact Yields.bind_panic (split_panic h0 h rest)

theorem vtn_eof (cfg : Cfg) (r : Ranges) :
    Yields (parse_vtn_index cfg r) [] (.err .EndOfFile eofText) [] := by
  unfold parse_vtn_index
  exact Yields.bind_err next_string_nil

/-- A list of references up to where it stops. -/
theorem vtns_ok {cfg : Cfg} {lo hi : Counts} (hs : Small hi) {ts : List Tok} {refs : List Ref}
    (h : List.Forall₂ (RefTok lo hi) ts refs) {mid rest : List Tok} (hm : Stop cfg lo hi mid rest)
    {fuel : Nat} (hf : ts.length < fuel) (acc : List VTNIndex) :
    Yields (parse_vtn_indices cfg (rng lo hi) fuel acc) (ts ++ mid)
      (.ok (acc ++ refs.map (Ref.resolve lo))) rest := by
  induction h generalizing fuel acc with
  | nil =>
    obtain ⟨fuel, rfl⟩ : ∃ k, fuel = k + 1 := ⟨fuel - 1, by omega⟩
    unfold parse_vtn_indices
    simp only [List.map_nil, List.append_nil, List.nil_append]
    rcases hm with ⟨t, k, m, rfl, h⟩ | ⟨rfl, rfl⟩
    · exact Yields.attempt_err (vtn_err hs h rest) fun e => Yields.pure _ _
    · exact Yields.attempt_err (vtn_eof cfg _) fun e => Yields.pure _ _
  | @cons t r ts refs h1 h2 ih =>
    simp only [List.length_cons] at hf
    obtain ⟨fuel, rfl⟩ : ∃ k, fuel = k + 1 := ⟨fuel - 1, by omega⟩
    unfold parse_vtn_indices
    refine Yields.attempt_ok (vtn_ok cfg h1 _) ?_
    have := ih (fuel := fuel) (by omega) (acc ++ [r.resolve lo])
    simpa using this

theorem vtns_panic {cfg : Cfg} {lo hi : Counts} {ts : List Tok} {refs : List Ref}
    (h : List.Forall₂ (RefTok lo hi) ts refs) {t : Tok} (ht : RefPanic cfg lo hi t) (rest : List Tok)
    {fuel : Nat} (hf : ts.length < fuel) (acc : List VTNIndex) :
    Yields (parse_vtn_indices cfg (rng lo hi) fuel acc) (ts ++ t :: rest)
      (.panic .indexSubOverflow) rest := by
  induction h generalizing fuel acc with
  | nil =>
    obtain ⟨fuel, rfl⟩ : ∃ k, fuel = k + 1 := ⟨fuel - 1, by omega⟩
    unfold parse_vtn_indices
    exact Yields.attempt_panic (vtn_panic ht rest)
  | @cons t r ts refs h1 h2 ih =>
    simp only [List.length_cons] at hf
    obtain ⟨fuel, rfl⟩ : ∃ k, fuel = k + 1 := ⟨fuel - 1, by omega⟩
    unfold parse_vtn_indices
    refine Yields.attempt_ok (vtn_ok cfg h1 _) ?_
    exact ih (fuel := fuel) (by omega) _

/-- Every token list is some references followed by a stop or a panic. -/
theorem refs_total (cfg : Cfg) (lo hi : Counts) (toks : List Tok) :
    ∃ ts refs mid, toks = ts ++ mid ∧ List.Forall₂ (RefTok lo hi) ts refs ∧
      ((∃ rest, Stop cfg lo hi mid rest) ∨ (∃ t rest, mid = t :: rest ∧ RefPanic cfg lo hi t)) := by
  induction toks with
  | nil => exact ⟨[], [], [], rfl, .nil, .inl ⟨[], .inr ⟨rfl, rfl⟩⟩⟩
  | cons t toks ih =>
    rcases ref_total cfg lo hi t with ⟨r, h⟩ | ⟨k, m, h⟩ | h
    · obtain ⟨ts, refs, mid, rfl, h1, h2⟩ := ih
      exact ⟨t :: ts, r :: refs, mid, rfl, .cons h h1, h2⟩
    · exact ⟨[], [], t :: toks, rfl, .nil, .inl ⟨toks, .inl ⟨t, k, m, rfl, h⟩⟩⟩
    · exact ⟨[], [], t :: toks, rfl, .nil, .inr ⟨t, toks, rfl, h⟩⟩

end Verif.Obj
