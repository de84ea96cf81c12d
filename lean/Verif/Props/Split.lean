import Verif.Proofs.Splice
import Verif.Proofs.Numbers
import Verif.Props.Exact

/-!
# Properties C76 and C77: splitting statements and spelling numbers
-/

namespace Verif.Spec.Obj

open Verif Verif.Obj

variable {F : Type} [FloatSem F]

omit [FloatSem F] in
theorem defaults_groups (a : Acc F) : a.defaults.groups ≠ [] ∧ a.defaults.smoothing ≠ [] := by
  unfold Acc.defaults
  by_cases hg : a.groups = [] <;> by_cases hs : a.smoothing = [] <;> simp [hg, hs]

omit [FloatSem F] in
theorem defaults_of {a : Acc F} (h : a.groups ≠ [] ∧ a.smoothing ≠ []) : a.defaults = a := by
  simp [Acc.defaults, h.1, h.2]

omit [FloatSem F] in
/-- Adding elements in two steps. -/
theorem addElements_twice (a : Acc F) (x y : List Element) :
    (a.defaults.addElements x).defaults.addElements y = a.defaults.addElements (x ++ y) := by
  rw [defaults_of (a := a.defaults.addElements x) (defaults_groups a)]
  simp only [Acc.addElements, List.length_append, List.append_assoc, List.range'_append_1,
    Acc.mk.injEq, true_and, and_true]
  simp [← List.range'_append_1]

theorem zipWith_split {α β : Type} (f : α → α → β) (x : List α) (k : α) (y : List α) :
    List.zipWith f (x ++ k :: y) (x ++ k :: y).tail =
      List.zipWith f (x ++ [k]) (x ++ [k]).tail ++ List.zipWith f (k :: y) y := by
  induction x with
  | nil => simp
  | cons a x ih => cases x <;> simp_all

theorem fan_split (a : VTNIndex) (x : List VTNIndex) (k : VTNIndex) (y : List VTNIndex) :
    fan (a :: (x ++ k :: y)) = fan (a :: (x ++ [k])) ++ fan (a :: k :: y) := by
  simp only [fan]
  exact zipWith_split _ _ _ _

theorem sameEffect_elements {it x y : Item} (hi : it.isElement = true) (hx : x.isElement = true) (hy : y.isElement = true)
    (he : ∀ lo, it.elements lo = x.elements lo ++ y.elements lo) : SameEffect F [it] [x, y] where
  fold lo acc := by
    have key : ∀ (z : Item) (b : Acc F), z.isElement = true → b.step lo z = b.defaults.addElements (z.elements lo) := by
      intro z b hz
      cases z <;> first | rfl | cases hz
    simp only [List.foldl_cons, List.foldl_nil]
    rw [key _ _ hi, key _ _ hx, key _ _ hy, addElements_twice, he]
  counts c := by
    have key : ∀ (z : Item) (c : Counts), z.isElement = true → c + z.counts = c := by
      intro z c hz
      cases z <;> first | rfl | cases hz
    simp only [List.foldl_cons, List.foldl_nil]
    rw [key _ _ hi, key _ _ hx, key _ _ hy]
  bare := by simp [Bare, hi, hx, hy]

end Verif.Spec.Obj

namespace Verif.Props

open Verif Verif.Obj Verif.Spec Verif.Spec.Obj

variable {F : Type} [FloatSem F] {cfg : Cfg} {lo hi : Counts}

/-- Lines of a file exchanged for lines with the same effect. -/
theorem splice {a x x' : Bytes} {its its' : List Item} {Y : List Tok} {n : Nat}
    (hlen : (a ++ x).length < 2 ^ 63) (hlen' : (a ++ x').length < 2 ^ 63)
    (ha : a = [] ∨ a.getLast? = some 10)
    (hat : AtStmt cfg (tokens (a ++ x)) lo hi (tokens x))
    (hr : Run cfg lo hi its (tokens x) Y) (hr' : Run cfg lo hi its' (tokens x') Y)
    (hh : (tokens x').head? = (tokens x).head?) (he : SameEffect F its its')
    (hn : nls (tokens x') = nls (tokens x) + n) :
    (Obj.parse cfg (a ++ x') : Out ErrorKind (ObjectSet F)) = shiftLine n (Obj.parse cfg (a ++ x)) := by
  obtain ⟨pre, e, hsame⟩ := atStmt_alike (F := F) hat hr
  obtain rfl : tokens a = pre := by
    rw [tokens_twin_lines ha] at e
    exact List.append_cancel_right e
  have hsame := hsame (tokens x') its' hh hr' he
  rw [← tokens_twin_lines ha] at hsame
  have hcount : nls (tokens (a ++ x')) = nls (tokens (a ++ x)) + n := by
    rw [tokens_twin_lines ha, tokens_twin_lines ha]
    simp only [nls, List.count_append] at hn ⊢
    omega
  rcases hsame with ⟨file, file', h, h', hm⟩ | ⟨k, m, rest, h, h'⟩ | ⟨x, h, h'⟩
  · rw [Obj.parse_ok_of hlen h, Obj.parse_ok_of hlen' h', hm]; rfl
  · rw [Obj.parse_err_of hlen h, Obj.parse_err_of hlen' h', hcount]
    have hs := nls_suffix (fileErr_suffix h)
    simp only [shiftLine, Out.err.injEq, ParseError.mk.injEq, and_true]
    omega
  · rw [Obj.parse_panic_of hlen h, Obj.parse_panic_of hlen' h']; rfl

theorem forall₂_split {α β : Type} {R : α → β → Prop} {x y : List α} {l : List β} (h : List.Forall₂ R (x ++ y) l) :
    ∃ l1 l2, l = l1 ++ l2 ∧ List.Forall₂ R x l1 ∧ List.Forall₂ R y l2 := by
  induction x generalizing l with
  | nil => exact ⟨[], l, rfl, .nil, h⟩
  | cons a x ih =>
    obtain ⟨b, l, hab, h', rfl⟩ := List.forall₂_cons_left_iff.mp h
    obtain ⟨l1, l2, rfl, h1, h2⟩ := ih h'
    exact ⟨b :: l1, l2, rfl, .cons hab h1, h2⟩

theorem forall₂_join {α β : Type} {R : α → β → Prop} {x y : List α} {l1 l2 : List β} (h1 : List.Forall₂ R x l1)
    (h2 : List.Forall₂ R y l2) : List.Forall₂ R (x ++ y) (l1 ++ l2) := by
  induction h1 with
  | nil => exact h2
  | cons h _ ih => exact .cons h ih

theorem uniform_sub {a b : List Ref} (h : Uniform a) (hs : ∀ r ∈ b, r ∈ a) : Uniform b :=
  fun x hx y hy => h x (hs x hx) y (hs y hy)

theorem forall₂_ne {α β : Type} {R : α → β → Prop} {x : List α} {l : List β} (h : List.Forall₂ R x l) (hx : x ≠ []) :
    0 < l.length := by
  cases h with
  | nil => exact absurd rfl hx
  | cons => simp

theorem nls_refs {ts : List Tok} {refs : List Ref} (h : List.Forall₂ (RefTok lo hi) ts refs) : nls ts = 0 := by
  induction h with
  | nil => rfl
  | cons h _ ih => rw [nls, List.count_cons_of_ne (refTok_ne_nl h)]; exact ih

theorem nls_nums {a b : Nat} {ts : List Tok} {is : List Nat} (h : List.Forall₂ (NumTok a b) ts is) : nls ts = 0 := by
  induction h with
  | nil => rfl
  | cons h _ ih =>
    rw [nls, List.count_cons_of_ne]
    · exact ih
    · rintro rfl
      have := h.1
      rw [parseIsize_nl] at this
      cases this

theorem nls_stmt_line {kw : Tok} {ts rest : List Tok} (h : nls ts = 0) (hk : kw ≠ nl) :
    nls (kw :: (ts ++ nl :: rest)) = nls rest + 1 := by
  simp only [nls] at h ⊢
  rw [List.count_cons_of_ne hk, List.count_append, h, List.count_cons_self, Nat.zero_add]

/-- The three kinds of element lines, up to the end of the line. -/
theorem run_f {ts : List Tok} {refs : List Ref} {its : List Item} {rest Y : List Tok} (h3 : 3 ≤ refs.length)
    (hr : List.Forall₂ (RefTok lo hi) ts refs) (hu : Uniform refs) (h : Run cfg lo hi its rest Y) :
    Run cfg lo hi (.f refs :: its) (b!"f" :: (ts ++ nl :: rest)) Y :=
  .stmt (.f h3 hr hu (.inl ⟨nl, _, _, rfl, refErr_nl cfg lo hi⟩)) h

theorem run_l {ts : List Tok} {refs : List Ref} {its : List Item} {rest Y : List Tok} (h2 : 2 ≤ refs.length)
    (hr : List.Forall₂ (RefTok lo hi) ts refs) (hu : Uniform refs) (h : Run cfg lo hi its rest Y) :
    Run cfg lo hi (.l refs :: its) (b!"l" :: (ts ++ nl :: rest)) Y :=
  .stmt (.l h2 hr hu (.inl ⟨nl, _, _, rfl, refErr_nl cfg lo hi⟩)) h

theorem run_p {ts : List Tok} {is : List Nat} {its : List Item} {rest Y : List Tok} (h1 : is ≠ [])
    (hr : List.Forall₂ (NumTok lo.v hi.v) ts is) (h : Run cfg lo hi its rest Y) :
    Run cfg lo hi (.p is :: its) (b!"p" :: (ts ++ nl :: rest)) Y :=
  .stmt (.p h1 hr (.inl rfl)) h

section
variable {a b l l1 l2 : Bytes}
  (hlen : (a ++ (l ++ 10 :: b)).length < 2 ^ 63)
  (hlen' : (a ++ (l1 ++ 10 :: (l2 ++ 10 :: b))).length < 2 ^ 63)
  (ha : a = [] ∨ a.getLast? = some 10)
  (hat : AtStmt cfg (tokens (a ++ (l ++ 10 :: b))) lo hi (tokens (l ++ 10 :: b)))

include hlen hlen' ha hat

/-- **C76** A face of at least four vertices can be written as two faces that share the first
vertex and one more. -/
theorem C76_face {t0 t : Tok} {ts1 ts2 : List Tok} {refs : List Ref}
    (hl : tokens l = b!"f" :: t0 :: (ts1 ++ t :: ts2)) (hl1 : tokens l1 = b!"f" :: t0 :: (ts1 ++ [t]))
    (hl2 : tokens l2 = b!"f" :: t0 :: t :: ts2) (h1 : ts1 ≠ []) (h2 : ts2 ≠ [])
    (hr : List.Forall₂ (RefTok lo hi) (t0 :: (ts1 ++ t :: ts2)) refs) (hu : Uniform refs) :
    (Obj.parse cfg (a ++ (l1 ++ 10 :: (l2 ++ 10 :: b))) : Out ErrorKind (ObjectSet F)) =
      shiftLine 1 (Obj.parse cfg (a ++ (l ++ 10 :: b))) := by
  obtain ⟨r0, refs, h0, hr', rfl⟩ := List.forall₂_cons_left_iff.mp hr
  obtain ⟨rs1, refs, rfl, hr1, hr''⟩ := forall₂_split hr'
  obtain ⟨r, rs2, hrt, hr2, rfl⟩ := List.forall₂_cons_left_iff.mp hr''
  have n1 := forall₂_ne hr1 h1
  have n2 := forall₂_ne hr2 h2
  have f0 : List.Forall₂ (RefTok lo hi) (t0 :: (ts1 ++ t :: ts2)) (r0 :: (rs1 ++ r :: rs2)) :=
    .cons h0 (forall₂_join hr1 (.cons hrt hr2))
  have f1 : List.Forall₂ (RefTok lo hi) (t0 :: (ts1 ++ [t])) (r0 :: (rs1 ++ [r])) :=
    .cons h0 (forall₂_join hr1 (.cons hrt .nil))
  have f2 : List.Forall₂ (RefTok lo hi) (t0 :: t :: ts2) (r0 :: r :: rs2) := .cons h0 (.cons hrt hr2)
  have e : tokens (l ++ 10 :: b) = b!"f" :: (t0 :: (ts1 ++ t :: ts2) ++ nl :: tokens b) := by
    rw [tokens_append_nl, hl]; rfl
  have e' : tokens (l1 ++ 10 :: (l2 ++ 10 :: b)) =
      b!"f" :: (t0 :: (ts1 ++ [t]) ++ nl :: b!"f" :: (t0 :: t :: ts2 ++ nl :: tokens b)) := by
    rw [tokens_append_nl, tokens_append_nl, hl1, hl2]; rfl
  refine splice hlen hlen' ha hat (Y := tokens b) (its := [.f (r0 :: (rs1 ++ r :: rs2))])
    (its' := [.f (r0 :: (rs1 ++ [r])), .f (r0 :: r :: rs2)]) (e ▸ run_f ?_ f0 hu .nil)
    (e' ▸ run_f ?_ f1 (uniform_sub hu ?_) (run_f ?_ f2 (uniform_sub hu ?_) .nil)) (by rw [e, e']; rfl)
    (sameEffect_elements rfl rfl rfl fun lo => ?_) ?_
  · simp only [List.length_cons, List.length_append]; omega
  · simp only [List.length_cons, List.length_append]; omega
  · intro x hx
    simp only [List.mem_cons, List.mem_append, List.not_mem_nil, or_false] at hx ⊢
    tauto
  · simp only [List.length_cons]; omega
  · intro x hx
    simp only [List.mem_cons, List.mem_append] at hx ⊢
    tauto
  · simp only [Item.elements, List.map_cons, List.map_append, List.map_nil]
    exact fan_split _ _ _ _
  · rw [e, e', nls_stmt_line (nls_refs f0) (by decide), nls_stmt_line (nls_refs f1) (by decide),
      nls_stmt_line (nls_refs f2) (by decide)]

/-- **C76** A line of at least three vertices can be written as two lines that share a vertex. -/
theorem C76_line {t : Tok} {ts1 ts2 : List Tok} {refs : List Ref}
    (hl : tokens l = b!"l" :: (ts1 ++ t :: ts2)) (hl1 : tokens l1 = b!"l" :: (ts1 ++ [t]))
    (hl2 : tokens l2 = b!"l" :: t :: ts2) (h1 : ts1 ≠ []) (h2 : ts2 ≠ [])
    (hr : List.Forall₂ (RefTok lo hi) (ts1 ++ t :: ts2) refs) (hu : Uniform refs) :
    (Obj.parse cfg (a ++ (l1 ++ 10 :: (l2 ++ 10 :: b))) : Out ErrorKind (ObjectSet F)) =
      shiftLine 1 (Obj.parse cfg (a ++ (l ++ 10 :: b))) := by
  have f0 := hr
  obtain ⟨rs1, refs, rfl, hr1, hr⟩ := forall₂_split hr
  obtain ⟨r, rs2, hrt, hr2, rfl⟩ := List.forall₂_cons_left_iff.mp hr
  have n1 := forall₂_ne hr1 h1
  have n2 := forall₂_ne hr2 h2
  have f1 : List.Forall₂ (RefTok lo hi) (ts1 ++ [t]) (rs1 ++ [r]) := forall₂_join hr1 (.cons hrt .nil)
  have e : tokens (l ++ 10 :: b) = b!"l" :: ((ts1 ++ t :: ts2) ++ nl :: tokens b) := by
    rw [tokens_append_nl, hl]; rfl
  have e' : tokens (l1 ++ 10 :: (l2 ++ 10 :: b)) =
      b!"l" :: ((ts1 ++ [t]) ++ nl :: b!"l" :: (t :: ts2 ++ nl :: tokens b)) := by
    rw [tokens_append_nl, tokens_append_nl, hl1, hl2]; rfl
  refine splice hlen hlen' ha hat (Y := tokens b) (its := [.l (rs1 ++ r :: rs2)])
    (its' := [.l (rs1 ++ [r]), .l (r :: rs2)]) (e ▸ run_l ?_ f0 hu .nil)
    (e' ▸ run_l ?_ f1 (uniform_sub hu ?_) (run_l ?_ hr (uniform_sub hu ?_) .nil)) (by rw [e, e']; rfl)
    (sameEffect_elements rfl rfl rfl fun lo => ?_) ?_
  · simp only [List.length_cons, List.length_append]; omega
  · simp only [List.length_cons, List.length_append, List.length_nil]; omega
  · intro x hx
    simp only [List.mem_cons, List.mem_append, List.not_mem_nil, or_false] at hx ⊢
    tauto
  · simp only [List.length_cons]; omega
  · intro x hx
    simp only [List.mem_cons, List.mem_append] at hx ⊢
    tauto
  · simp only [Item.elements, List.map_cons, List.map_append, List.map_nil]
    exact zipWith_split _ _ _ _
  · rw [e, e', nls_stmt_line (nls_refs f0) (by decide), nls_stmt_line (nls_refs f1) (by decide),
      nls_stmt_line (nls_refs hr) (by decide)]

/-- **C76** Points can be distributed over two statements. -/
theorem C76_points {ts1 ts2 : List Tok} {is : List Nat}
    (hl : tokens l = b!"p" :: (ts1 ++ ts2)) (hl1 : tokens l1 = b!"p" :: ts1)
    (hl2 : tokens l2 = b!"p" :: ts2) (h1 : ts1 ≠ []) (h2 : ts2 ≠ [])
    (hr : List.Forall₂ (NumTok lo.v hi.v) (ts1 ++ ts2) is) :
    (Obj.parse cfg (a ++ (l1 ++ 10 :: (l2 ++ 10 :: b))) : Out ErrorKind (ObjectSet F)) =
      shiftLine 1 (Obj.parse cfg (a ++ (l ++ 10 :: b))) := by
  have f0 := hr
  obtain ⟨is1, is2, rfl, hr1, hr2⟩ := forall₂_split hr
  have n1 := forall₂_ne hr1 h1
  have n2 := forall₂_ne hr2 h2
  have e : tokens (l ++ 10 :: b) = b!"p" :: ((ts1 ++ ts2) ++ nl :: tokens b) := by
    rw [tokens_append_nl, hl]; rfl
  have e' : tokens (l1 ++ 10 :: (l2 ++ 10 :: b)) = b!"p" :: (ts1 ++ nl :: b!"p" :: (ts2 ++ nl :: tokens b)) := by
    rw [tokens_append_nl, tokens_append_nl, hl1, hl2]; rfl
  have m1 := List.length_pos_iff.mp n1
  refine splice hlen hlen' ha hat (Y := tokens b) (its := [.p (is1 ++ is2)]) (its' := [.p is1, .p is2])
    (e ▸ run_p (by simp [m1]) f0 .nil)
    (e' ▸ run_p m1 hr1 (run_p (List.length_pos_iff.mp n2) hr2 .nil)) (by rw [e, e']; rfl)
    (sameEffect_elements rfl rfl rfl fun lo => ?_) ?_
  · simp only [Item.elements, List.map_append]
  · rw [e, e', nls_stmt_line (nls_nums f0) (by decide), nls_stmt_line (nls_nums hr1) (by decide),
      nls_stmt_line (nls_nums hr2) (by decide)]

/-- **C76** Of two `usemtl` statements that follow each other the first can be left out. -/
theorem C76_material {x y : Tok} (hl : tokens l = [b!"usemtl", y]) (hl1 : tokens l1 = [b!"usemtl", x])
    (hl2 : tokens l2 = [b!"usemtl", y]) (hx : x ≠ nl) :
    (Obj.parse cfg (a ++ (l1 ++ 10 :: (l2 ++ 10 :: b))) : Out ErrorKind (ObjectSet F)) =
      shiftLine 1 (Obj.parse cfg (a ++ (l ++ 10 :: b))) := by
  have e : tokens (l ++ 10 :: b) = b!"usemtl" :: y :: nl :: tokens b := by
    rw [tokens_append_nl, hl]; rfl
  have e' : tokens (l1 ++ 10 :: (l2 ++ 10 :: b)) = b!"usemtl" :: x :: nl :: b!"usemtl" :: y :: nl :: tokens b := by
    rw [tokens_append_nl, tokens_append_nl, hl1, hl2]; rfl
  refine splice hlen hlen' ha hat (Y := nl :: tokens b) (its := [.usemtl y]) (its' := [.usemtl x, .usemtl y])
    (e ▸ .stmt .usemtl .nil) (e' ▸ .stmt .usemtl (.blank (.stmt .usemtl .nil))) (by rw [e, e']; rfl)
    ⟨fun lo acc => ?_, fun c => rfl, by simp [Bare, Item.isUsemtl]⟩ ?_
  · simp only [List.foldl_cons, List.foldl_nil, Acc.step]
    by_cases h : acc.ofMaterial = [] <;> simp [h]
  · rw [e, e']
    simp [nls, List.count_cons, hx]

end

/-! ## C77 -/

/-- The digits `d` with zeros and possibly a plus sign in front. -/
def Spells (d p : Bytes) : Prop := ∃ n, p = List.replicate n 48 ++ d ∨ p = 43 :: (List.replicate n 48 ++ d)

/-- The same text, or two spellings of the same digits. -/
def Respelled (p q : Bytes) : Prop :=
  p = q ∨ ∃ d, d ≠ [] ∧ (∀ c ∈ d, 48 ≤ c ∧ c ≤ 57) ∧ Spells d p ∧ Spells d q

/-- Two references that differ in the spelling of numbers. -/
def RespelledRef (t t' : Tok) : Prop := List.Forall₂ Respelled (pieces t) (pieces t')

theorem decimal_zeros {d : Bytes} (hd : d ≠ []) (k n : Nat) :
    Decimal (List.replicate k 48 ++ d) n ↔ Decimal d n := by
  have hz : Nat.ofDigits 10 (List.replicate k 0) = 0 := by
    induction k with
    | zero => rfl
    | succ k ih => rw [List.replicate_succ, Nat.ofDigits_cons, ih]
  have e : Nat.ofDigits 10 ((List.replicate k (48 : UInt8) ++ d).reverse.map fun c => c.toNat - 48) =
      Nat.ofDigits 10 (d.reverse.map fun c => c.toNat - 48) := by
    rw [List.reverse_append, List.map_append, Nat.ofDigits_append, List.reverse_replicate, List.map_replicate]
    rw [show (48 : UInt8).toNat - 48 = 0 from rfl, hz, Nat.mul_zero, Nat.add_zero]
  unfold Decimal
  rw [e]
  simp only [ne_eq, List.append_eq_nil_iff, hd, and_false, not_false_eq_true, true_and, List.mem_append, or_imp, forall_and,
    List.mem_replicate, and_imp]
  constructor
  · rintro ⟨⟨h1, h2⟩, h3⟩
    exact ⟨⟨h1.2, h2.2⟩, h3⟩
  · rintro ⟨⟨h1, h2⟩, h3⟩
    refine ⟨⟨⟨?_, h1⟩, ?_, h2⟩, h3⟩ <;> (rintro x - rfl; decide)

/-- What a spelling denotes. -/
theorem spells_iff {d p : Bytes} (hd : d ≠ []) (hc : ∀ c ∈ d, 48 ≤ c ∧ c ≤ 57) (h : Spells d p) :
    (∀ i, parseIsize p = some i ↔ ∃ n : Nat, Decimal d n ∧ i = n ∧ i ≤ 2 ^ 63 - 1) ∧
    ∀ n, parseUsize p = some n ↔ Decimal d n ∧ n ≤ 2 ^ 64 - 1 := by
  obtain ⟨k, h⟩ := h
  have head : ∀ c r, List.replicate k 48 ++ d = c :: r → c ≠ 43 ∧ c ≠ 45 := by
    intro c r e
    have hm : c ∈ List.replicate k 48 ++ d := by rw [e]; simp
    have : 48 ≤ c ∧ c ≤ 57 := by
      rcases List.mem_append.mp hm with h | h
      · rw [(List.mem_replicate.mp h).2]; decide
      · exact hc c h
    constructor <;> (rintro rfl; exact absurd this (by decide))
  constructor
  · intro i
    rw [parseIsize_iff]
    constructor
    · rintro ⟨ds, n, hn, h', -, hi⟩
      rcases h with rfl | rfl
      · rcases h' with ⟨rfl | e, rfl⟩ | ⟨e, -⟩
        · exact ⟨n, (decimal_zeros hd k n).mp hn, rfl, hi⟩
        · exact absurd rfl (head _ _ e).1
        · exact absurd rfl (head _ _ e).2
      · rcases h' with ⟨rfl | e, rfl⟩ | ⟨e, -⟩
        · exact absurd rfl (decimal_head hn rfl).1
        · obtain ⟨-, rfl⟩ := List.cons.inj e
          exact ⟨n, (decimal_zeros hd k n).mp hn, rfl, hi⟩
        · exact absurd (List.cons.inj e).1 (by decide)
    · rintro ⟨n, hn, rfl, hi⟩
      exact ⟨_, n, (decimal_zeros hd k n).mpr hn, .inl ⟨h, rfl⟩, by omega, hi⟩
  · intro n
    rw [parseUsize_iff]
    constructor
    · rintro ⟨ds, h', hn, hi⟩
      rcases h with rfl | rfl
      · rcases h' with rfl | e
        · exact ⟨(decimal_zeros hd k n).mp hn, hi⟩
        · exact absurd rfl (head _ _ e).1
      · rcases h' with rfl | e
        · exact absurd rfl (decimal_head hn rfl).1
        · obtain ⟨-, rfl⟩ := List.cons.inj e
          exact ⟨(decimal_zeros hd k n).mp hn, hi⟩
    · rintro ⟨hn, hi⟩
      exact ⟨_, h, (decimal_zeros hd k n).mpr hn, hi⟩

theorem respelled_parse {p q : Bytes} (h : Respelled p q) :
    parseIsize p = parseIsize q ∧ parseUsize p = parseUsize q ∧ (p = [] ↔ q = []) := by
  rcases h with rfl | ⟨d, hd, hc, hp, hq⟩
  · exact ⟨rfl, rfl, Iff.rfl⟩
  · refine ⟨Option.ext fun i => ?_, Option.ext fun n => ?_, ?_⟩
    · exact ((spells_iff hd hc hp).1 i).trans ((spells_iff hd hc hq).1 i).symm
    · exact ((spells_iff hd hc hp).2 n).trans ((spells_iff hd hc hq).2 n).symm
    · have : ∀ p, Spells d p → p ≠ [] := by
        rintro p ⟨n, rfl | rfl⟩ <;> simp [hd]
      simp [this p hp, this q hq]

theorem respelled_piece {t t' : Tok} (h : RespelledRef t t') (i : Nat) : Respelled (piece t i) (piece t' i) := by
  unfold piece
  have hl := h.length_eq
  by_cases hi : i < (pieces t).length
  · rw [List.getElem?_eq_getElem hi, List.getElem?_eq_getElem (hl ▸ hi)]
    exact h.get hi (hl ▸ hi)
  · rw [List.getElem?_eq_none (by omega), List.getElem?_eq_none (by omega)]
    exact .inl rfl

theorem respelled_num {a b : Nat} {t t' : Tok} {k : Nat} (h : Respelled t t') (hn : NumTok a b t k) : NumTok a b t' k :=
  ⟨(respelled_parse h).1 ▸ hn.1, hn.2⟩

theorem respelled_pieceOk {a b : Nat} {t t' : Tok} {o : Option Nat} (h : Respelled t t') (hn : PieceOk a b t o) :
    PieceOk a b t' o := by
  have he := (respelled_parse h).2.2
  rcases hn with ⟨rfl, rfl⟩ | ⟨k, h1, h2, rfl⟩
  · exact .inl ⟨he.mp rfl, rfl⟩
  · exact .inr ⟨k, mt he.mpr h1, respelled_num h h2, rfl⟩

theorem respelled_ref {t t' : Tok} {r : Ref} (h : RespelledRef t t') (hr : RefTok lo hi t r) : RefTok lo hi t' r :=
  ⟨h.length_eq ▸ hr.few, respelled_pieceOk (respelled_piece h 0) hr.v, respelled_pieceOk (respelled_piece h 1) hr.vt,
    respelled_pieceOk (respelled_piece h 2) hr.vn⟩

theorem forall₂_respell {α β : Type} {S : α → α → Prop} {R : α → β → Prop} (hS : ∀ a a' b, S a a' → R a b → R a' b)
    {x x' : List α} {l : List β} (hx : List.Forall₂ S x x') (h : List.Forall₂ R x l) : List.Forall₂ R x' l := by
  induction hx generalizing l with
  | nil => exact h
  | cons hs _ ih =>
    obtain ⟨b, l, hab, h', rfl⟩ := List.forall₂_cons_left_iff.mp h
    exact .cons (hS _ _ _ hs hab) (ih h')

theorem shiftLine_zero {K α : Type} (o : Out K α) : shiftLine 0 o = o := by cases o <;> rfl

section
variable {a b l l' : Bytes}
  (hlen : (a ++ (l ++ 10 :: b)).length < 2 ^ 63) (hlen' : (a ++ (l' ++ 10 :: b)).length < 2 ^ 63)
  (ha : a = [] ∨ a.getLast? = some 10)
  (hat : AtStmt cfg (tokens (a ++ (l ++ 10 :: b))) lo hi (tokens (l ++ 10 :: b)))

include hlen hlen' ha hat

/-- **C77** How the numbers in the references of a line or face are spelled makes no difference. -/
theorem C77_references {kw : Tok} {ts ts' : List Tok} {refs : List Ref}
    (hl : tokens l = kw :: ts) (hl' : tokens l' = kw :: ts') (hts : List.Forall₂ RespelledRef ts ts')
    (hr : List.Forall₂ (RefTok lo hi) ts refs) (hu : Uniform refs)
    (hk : (kw = b!"l" ∧ 2 ≤ refs.length) ∨ (kw = b!"f" ∧ 3 ≤ refs.length)) :
    (Obj.parse cfg (a ++ (l' ++ 10 :: b)) : Out ErrorKind (ObjectSet F)) = Obj.parse cfg (a ++ (l ++ 10 :: b)) := by
  have hr' := forall₂_respell (R := RefTok lo hi) (fun _ _ _ h => respelled_ref h) hts hr
  have e : tokens (l ++ 10 :: b) = kw :: (ts ++ nl :: tokens b) := by rw [tokens_append_nl, hl]; rfl
  have e' : tokens (l' ++ 10 :: b) = kw :: (ts' ++ nl :: tokens b) := by rw [tokens_append_nl, hl']; rfl
  obtain ⟨it, h, h'⟩ : ∃ it, Run cfg lo hi [it] (tokens (l ++ 10 :: b)) (tokens b) ∧
      Run cfg lo hi [it] (tokens (l' ++ 10 :: b)) (tokens b) := by
    rw [e, e']
    rcases hk with ⟨rfl, h⟩ | ⟨rfl, h⟩
    · exact ⟨_, run_l h hr hu .nil, run_l h hr' hu .nil⟩
    · exact ⟨_, run_f h hr hu .nil, run_f h hr' hu .nil⟩
  have hkw : kw ≠ nl := by rcases hk with ⟨rfl, -⟩ | ⟨rfl, -⟩ <;> decide
  rw [splice (n := 0) hlen hlen' ha hat h h' (by rw [e, e']; rfl) (.refl _)
    (by rw [e, e', nls_stmt_line (nls_refs hr) hkw, nls_stmt_line (nls_refs hr') hkw]), shiftLine_zero]

/-- **C77** How the numbers of points are spelled makes no difference. -/
theorem C77_points {ts ts' : List Tok} {is : List Nat}
    (hl : tokens l = b!"p" :: ts) (hl' : tokens l' = b!"p" :: ts') (hts : List.Forall₂ Respelled ts ts')
    (hr : List.Forall₂ (NumTok lo.v hi.v) ts is) (his : is ≠ []) :
    (Obj.parse cfg (a ++ (l' ++ 10 :: b)) : Out ErrorKind (ObjectSet F)) = Obj.parse cfg (a ++ (l ++ 10 :: b)) := by
  have hr' := forall₂_respell (R := NumTok lo.v hi.v) (fun _ _ _ h => respelled_num h) hts hr
  have e : tokens (l ++ 10 :: b) = b!"p" :: (ts ++ nl :: tokens b) := by rw [tokens_append_nl, hl]; rfl
  have e' : tokens (l' ++ 10 :: b) = b!"p" :: (ts' ++ nl :: tokens b) := by rw [tokens_append_nl, hl']; rfl
  rw [splice (n := 0) hlen hlen' ha hat (e ▸ run_p his hr .nil) (e' ▸ run_p his hr' .nil) (by rw [e, e']; rfl) (.refl _)
    (by rw [e, e', nls_stmt_line (nls_nums hr) (by decide), nls_stmt_line (nls_nums hr') (by decide)]), shiftLine_zero]

/-- **C77** How the number of a smoothing group is spelled makes no difference, and `off` is another
spelling of zero. -/
theorem C77_smoothing {t t' : Tok} {n : Nat} (hl : tokens l = [b!"s", t]) (hl' : tokens l' = [b!"s", t'])
    (ht : t = b!"off" ∧ n = 0 ∨ t ≠ b!"off" ∧ parseUsize t = some n)
    (hts : Respelled t t' ∨ (t = b!"off" ∧ Respelled b!"0" t') ∨ (Respelled t b!"0" ∧ t' = b!"off")) :
    (Obj.parse cfg (a ++ (l' ++ 10 :: b)) : Out ErrorKind (ObjectSet F)) = Obj.parse cfg (a ++ (l ++ 10 :: b)) := by
  have hoff : parseUsize b!"off" = none := by decide
  have h0 : parseUsize b!"0" = some 0 := by decide
  have ht' : SmoothTok t' n := by
    by_cases hne : t' = b!"off"
    · rcases hts with h | ⟨rfl, h⟩ | ⟨h, -⟩
      · rcases ht with ⟨rfl, rfl⟩ | ⟨-, ht⟩
        · exact .inl ⟨hne, rfl⟩
        · rw [(respelled_parse h).2.1, hne, hoff] at ht; cases ht
      · have := (respelled_parse h).2.1
        rw [hne, hoff, h0] at this; cases this
      · refine .inl ⟨hne, ?_⟩
        rcases ht with ⟨-, rfl⟩ | ⟨-, ht⟩
        · rfl
        · rw [(respelled_parse h).2.1, h0] at ht; exact (Option.some.inj ht).symm
    · refine .inr ⟨hne, ?_⟩
      rcases hts with h | ⟨rfl, h⟩ | ⟨-, h⟩
      · rcases ht with ⟨rfl, rfl⟩ | ⟨-, ht⟩
        · rcases h with h | ⟨d, hd, hc, ⟨k, hp⟩, -⟩
          · exact absurd h.symm hne
          · exfalso
            rcases hp with hp | hp
            · cases k with
              | zero => exact absurd (hc 111 (by rw [List.replicate_zero, List.nil_append] at hp; rw [← hp]; decide)) (by decide)
              | succ k => exact absurd (List.cons.inj hp).1 (by decide)
            · exact absurd (List.cons.inj hp).1 (by decide)
        · rw [← (respelled_parse h).2.1]; exact ht
      · rcases ht with ⟨-, rfl⟩ | ⟨ht, -⟩
        · rw [← (respelled_parse h).2.1]; exact h0
        · exact absurd rfl ht
      · exact absurd h hne
  have hnl : t ≠ nl := by
    rintro rfl
    rcases ht with ⟨h, -⟩ | ⟨-, h⟩
    · exact absurd h (by decide)
    · exact absurd h (by rw [show parseUsize nl = none by decide]; simp)
  have hnl' : t' ≠ nl := by
    rintro rfl
    rcases ht' with ⟨h, -⟩ | ⟨-, h⟩
    · exact absurd h (by decide)
    · exact absurd h (by rw [show parseUsize nl = none by decide]; simp)
  have e : tokens (l ++ 10 :: b) = b!"s" :: t :: nl :: tokens b := by rw [tokens_append_nl, hl]; rfl
  have e' : tokens (l' ++ 10 :: b) = b!"s" :: t' :: nl :: tokens b := by rw [tokens_append_nl, hl']; rfl
  rw [splice (n := 0) (its := [.s n]) (its' := [.s n]) (Y := nl :: tokens b) hlen hlen' ha hat
    (e ▸ .stmt (.s ht) .nil) (e' ▸ .stmt (.s ht') .nil) (by rw [e, e']; rfl) (.refl _)
    (by rw [e, e']; simp [nls, hnl, hnl']), shiftLine_zero]

end

/-! ## Examples: after three vertices, in front of any other text -/

theorem ref_plain (t : Tok) (k : Nat) (h1 : parseIsize (piece t 0) = some (k : Int)) (h2 : 0 < k ∧ k ≤ 3)
    (h3 : (pieces t).length = 1) (h4 : piece t 1 = [] ∧ piece t 2 = []) : RefTok {} ⟨3, 0, 0⟩ t ⟨k, none, none⟩ :=
  ⟨by rw [h3]; decide, .inr ⟨k, parseIsize_nonempty h1, ⟨h1, h2.1, h2.2⟩, rfl⟩, .inl ⟨h4.1, rfl⟩, .inl ⟨h4.2, rfl⟩⟩

theorem at_line (l b : Bytes) :
    AtStmt debug (tokens (b!"v 0 0 0\nv 0 0 1\nv 0 1 0\n" ++ (l ++ 10 :: b))) {} ⟨3, 0, 0⟩ (tokens (l ++ 10 :: b)) := by
  rw [tokens_twin_lines (.inr (by decide))]
  exact at_face debug _

example (b : Bytes) (hlen : b.length < 2 ^ 62) :
    (Obj.parse debug (b!"v 0 0 0\nv 0 0 1\nv 0 1 0\n" ++ (b!"f 1 2 3" ++ 10 :: (b!"f 1 3 2" ++ 10 :: b))) :
      Out ErrorKind (ObjectSet F)) =
    shiftLine 1 (Obj.parse debug (b!"v 0 0 0\nv 0 0 1\nv 0 1 0\n" ++ (b!"f 1 2 3 2" ++ 10 :: b))) := by
  refine C76_face (refs := [⟨1, none, none⟩, ⟨2, none, none⟩, ⟨3, none, none⟩, ⟨2, none, none⟩])
    ?_ ?_ (.inr (by decide)) (at_line _ b) (t0 := b!"1") (t := b!"3") (ts1 := [b!"2"]) (ts2 := [b!"2"])
    (by decide +kernel) (by decide +kernel) (by decide +kernel) (by simp) (by simp) ?_ (by simp [Uniform, Ref.form])
  · simp; omega
  · simp; omega
  · exact .cons (ref_plain _ 1 (by decide) (by decide) (by decide) (by decide))
      (.cons (ref_plain _ 2 (by decide) (by decide) (by decide) (by decide))
      (.cons (ref_plain _ 3 (by decide) (by decide) (by decide) (by decide))
      (.cons (ref_plain _ 2 (by decide) (by decide) (by decide) (by decide)) .nil)))

example (b : Bytes) (hlen : b.length < 2 ^ 62) :
    (Obj.parse debug (b!"v 0 0 0\nv 0 0 1\nv 0 1 0\n" ++ (b!"l 1 2" ++ 10 :: (b!"l 2 3" ++ 10 :: b))) :
      Out ErrorKind (ObjectSet F)) =
    shiftLine 1 (Obj.parse debug (b!"v 0 0 0\nv 0 0 1\nv 0 1 0\n" ++ (b!"l 1 2 3" ++ 10 :: b))) := by
  refine C76_line (refs := [⟨1, none, none⟩, ⟨2, none, none⟩, ⟨3, none, none⟩])
    ?_ ?_ (.inr (by decide)) (at_line _ b) (t := b!"2") (ts1 := [b!"1"]) (ts2 := [b!"3"])
    (by decide +kernel) (by decide +kernel) (by decide +kernel) (by simp) (by simp) ?_ (by simp [Uniform, Ref.form])
  · simp; omega
  · simp; omega
  · exact .cons (ref_plain _ 1 (by decide) (by decide) (by decide) (by decide))
      (.cons (ref_plain _ 2 (by decide) (by decide) (by decide) (by decide))
      (.cons (ref_plain _ 3 (by decide) (by decide) (by decide) (by decide)) .nil))

example (b : Bytes) (hlen : b.length < 2 ^ 62) :
    (Obj.parse debug (b!"v 0 0 0\nv 0 0 1\nv 0 1 0\n" ++ (b!"p 3" ++ 10 :: (b!"p 1 2" ++ 10 :: b))) :
      Out ErrorKind (ObjectSet F)) =
    shiftLine 1 (Obj.parse debug (b!"v 0 0 0\nv 0 0 1\nv 0 1 0\n" ++ (b!"p 3 1 2" ++ 10 :: b))) := by
  refine C76_points (is := [3, 1, 2]) ?_ ?_ (.inr (by decide)) (at_line _ b) (ts1 := [b!"3"]) (ts2 := [b!"1", b!"2"])
    (by decide +kernel) (by decide +kernel) (by decide +kernel) (by simp) (by simp)
    (.cons ⟨by decide, by decide⟩ (.cons ⟨by decide, by decide⟩ (.cons ⟨by decide, by decide⟩ .nil)))
  · simp; omega
  · simp; omega

example (b : Bytes) (hlen : b.length < 2 ^ 62) :
    (Obj.parse debug (b!"v 0 0 0\nv 0 0 1\nv 0 1 0\n" ++ (b!"usemtl x" ++ 10 :: (b!"usemtl y" ++ 10 :: b))) :
      Out ErrorKind (ObjectSet F)) =
    shiftLine 1 (Obj.parse debug (b!"v 0 0 0\nv 0 0 1\nv 0 1 0\n" ++ (b!"usemtl y" ++ 10 :: b))) := by
  refine C76_material ?_ ?_ (.inr (by decide)) (at_line _ b) (x := b!"x") (y := b!"y")
    (by decide +kernel) (by decide +kernel) (by decide +kernel) (by decide)
  · simp; omega
  · simp; omega

theorem respelled_digit {d p q : Bytes} (h : d ≠ [] ∧ ∀ c ∈ d, 48 ≤ c ∧ c ≤ 57) (hp : Spells d p) (hq : Spells d q) :
    Respelled p q := .inr ⟨d, h.1, h.2, hp, hq⟩

example (b : Bytes) (hlen : b.length < 2 ^ 62) :
    (Obj.parse debug (b!"v 0 0 0\nv 0 0 1\nv 0 1 0\n" ++ (b!"f 01 +002 3" ++ 10 :: b)) : Out ErrorKind (ObjectSet F)) =
    Obj.parse debug (b!"v 0 0 0\nv 0 0 1\nv 0 1 0\n" ++ (b!"f 1 2 3" ++ 10 :: b)) := by
  refine C77_references (refs := [⟨1, none, none⟩, ⟨2, none, none⟩, ⟨3, none, none⟩])
    ?_ ?_ (.inr (by decide)) (at_line _ b) (kw := b!"f") (ts := [b!"1", b!"2", b!"3"]) (ts' := [b!"01", b!"+002", b!"3"])
    (by decide +kernel) (by decide +kernel) ?_ ?_ (by simp [Uniform, Ref.form]) (.inr ⟨rfl, by decide⟩)
  · simp; omega
  · simp; omega
  · refine .cons (.cons ?_ .nil) (.cons (.cons ?_ .nil) (.cons (.cons (.inl rfl) .nil) .nil))
    · exact respelled_digit (d := b!"1") ⟨by simp, by decide⟩ ⟨0, .inl rfl⟩ ⟨1, .inl rfl⟩
    · exact respelled_digit (d := b!"2") ⟨by simp, by decide⟩ ⟨0, .inl rfl⟩ ⟨2, .inr rfl⟩
  · exact .cons (ref_plain _ 1 (by decide) (by decide) (by decide) (by decide))
      (.cons (ref_plain _ 2 (by decide) (by decide) (by decide) (by decide))
      (.cons (ref_plain _ 3 (by decide) (by decide) (by decide) (by decide)) .nil))

example (b : Bytes) (hlen : b.length < 2 ^ 62) :
    (Obj.parse debug (b!"v 0 0 0\nv 0 0 1\nv 0 1 0\n" ++ (b!"p +3" ++ 10 :: b)) : Out ErrorKind (ObjectSet F)) =
    Obj.parse debug (b!"v 0 0 0\nv 0 0 1\nv 0 1 0\n" ++ (b!"p 03" ++ 10 :: b)) := by
  refine C77_points (is := [3]) ?_ ?_ (.inr (by decide)) (at_line _ b) (ts := [b!"03"]) (ts' := [b!"+3"])
    (by decide +kernel) (by decide +kernel) (.cons ?_ .nil) (.cons ⟨by decide, by decide⟩ .nil) (by simp)
  · simp; omega
  · simp; omega
  · exact respelled_digit (d := b!"3") ⟨by simp, by decide⟩ ⟨1, .inl rfl⟩ ⟨0, .inr rfl⟩

example (b : Bytes) (hlen : b.length < 2 ^ 62) :
    (Obj.parse debug (b!"v 0 0 0\nv 0 0 1\nv 0 1 0\n" ++ (b!"s +00" ++ 10 :: b)) : Out ErrorKind (ObjectSet F)) =
    Obj.parse debug (b!"v 0 0 0\nv 0 0 1\nv 0 1 0\n" ++ (b!"s off" ++ 10 :: b)) := by
  refine C77_smoothing (n := 0) ?_ ?_ (.inr (by decide)) (at_line _ b) (t := b!"off") (t' := b!"+00")
    (by decide +kernel) (by decide +kernel) (.inl ⟨rfl, rfl⟩) (.inr (.inl ⟨rfl, ?_⟩))
  · simp; omega
  · simp; omega
  · exact respelled_digit (d := b!"0") ⟨by simp, by decide⟩ ⟨0, .inl rfl⟩ ⟨1, .inr rfl⟩

end Verif.Props
