import Verif.Proofs.FloatShort
import Verif.Props.Compare
import Verif.Props.Override
import Verif.Props.Display

/-!
# Properties C81, C82 and C83: numbers as `f64`
-/

namespace Verif.Props

open Verif Verif.Spec

set_option exponentiation.threshold 2200

/-! ## C81 -/

/-- **C81** Every accepted string of at most 65220 bytes, or with an exponent below 655360, is read as the
number it denotes, rounded; or as infinity, or as NaN. -/
theorem C81_value {t : Bytes} (h : isFloat t = true) (hm : Moderate t) (x : F64) : FloatSem.value t = x ↔ Reads t x := by
  have total : Reads t (F64.value t) := by
    rcases F64.denotes_or h with ⟨neg, q, hd⟩ | ⟨s, r, rfl, hs, hi | hi | hi⟩
    · exact .numeral hd (F64.value_denotes hm hd)
    · rw [F64.value_inf hs (.inl hi)]; exact .inf hs (.inl hi)
    · rw [F64.value_inf hs (.inr hi)]; exact .inf hs (.inr hi)
    · rw [F64.value_nan hs hi]; exact .nan hs hi
  constructor
  · rintro rfl; exact total
  · intro hr
    cases hr with
    | numeral hd hx => exact F64.Rounded_unique (F64.value_denotes hm hd) hx
    | inf hs hi => exact F64.value_inf hs hi
    | nan hs hi => exact F64.value_nan hs hi

/-- **C81** The strings that are read as a number are those that are accepted, and there is one number for each. -/
theorem C81_reads (t : Bytes) : isFloat t = true ↔ ∃ x, Reads t x := by
  constructor
  · intro h
    rcases F64.denotes_or h with ⟨neg, q, hd⟩ | ⟨s, r, rfl, hs, hi | hi | hi⟩
    · obtain ⟨x, hx⟩ := F64.rounded_exists hd
      exact ⟨x, .numeral hd hx⟩
    · exact ⟨_, .inf hs (.inl hi)⟩
    · exact ⟨_, .inf hs (.inr hi)⟩
    · exact ⟨_, .nan hs hi⟩
  · rintro ⟨x, hx⟩
    cases hx with
    | numeral hd => exact F64.denotes_isFloat hd
    | inf hs hi => exact isFloat_iff.mpr ⟨_, _, rfl, hs, .inr (hi.elim .inl fun h => .inr (.inl h))⟩
    | nan hs hi => exact isFloat_iff.mpr ⟨_, _, rfl, hs, .inr (.inr (.inr hi))⟩

theorem C81_one : IsPlus FloatSem.one 1 := by
  refine ⟨_, _, rfl, ?_⟩
  have h := IsNumber.mk (neg := false) (bits := 1023 * 2 ^ 52) (by decide) (by decide)
  have e : signFactor false * bitsValue (1023 * 2 ^ 52) = 1 := by
    rw [F64.bitsValue_eq, show F64.units (1023 * 2 ^ 52) = 2 ^ 1074 by decide +kernel,
      Nat.cast_pow, show signFactor false = 1 from rfl, one_mul]
    exact div_self (by positivity)
  rw [e] at h
  exact h

theorem C81_zero : IsPlus FloatSem.zero 0 := by
  refine ⟨_, _, rfl, ?_⟩
  have h := IsNumber.mk (neg := false) (bits := 0) (Nat.zero_le _) (by decide)
  rw [F64.bitsValue_zero, mul_zero] at h
  exact h

section
open Verif.Obj Verif.Spec.Obj

/-- What a `v` statement says about a vertex. -/
def ReadsVertex : Item → Vertex F64 → Prop
  | .v x y z w, p => Reads x p.x ∧ Reads y p.y ∧ Reads z p.z ∧
      match w with
      | some w => Reads w p.w
      | none => IsPlus p.w 1
  | _, _ => False

/-- What a `vt` statement says about a texture vertex. -/
def ReadsTexture : Item → TextureVertex F64 → Prop
  | .vt u v w, p => Reads u p.u ∧
      (match v with
      | some v => Reads v p.v
      | none => IsPlus p.v 0) ∧
      match w with
      | some w => Reads w p.w
      | none => IsPlus p.w 0
  | _, _ => False

/-- What a `vn` statement says about a normal. -/
def ReadsNormal : Item → NormalVertex F64 → Prop
  | .vn x y z, p => Reads x p.x ∧ Reads y p.y ∧ Reads z p.z
  | _, _ => False

def isV : Item → Bool | .v .. => true | _ => false
def isVT : Item → Bool | .vt .. => true | _ => false
def isVN : Item → Bool | .vn .. => true | _ => false

theorem forall₂_filterMap {α β : Type} {R : α → β → Prop} {p : α → Bool} {f : α → Option β} {l : List α}
    (h : ∀ a ∈ l, (p a = true ∧ ∃ b, f a = some b ∧ R a b) ∨ (p a = false ∧ f a = none)) :
    List.Forall₂ R (l.filter p) (l.filterMap f) := by
  induction l with
  | nil => exact .nil
  | cons a l ih =>
    have := ih fun b hb => h b (by simp [hb])
    rcases h a (by simp) with ⟨h1, b, h2, h3⟩ | ⟨h1, h2⟩
    · rw [List.filter_cons_of_pos h1, List.filterMap_cons_some h2]
      exact .cons h3 this
    · rw [List.filter_cons_of_neg (by simp [h1]), List.filterMap_cons_none h2]
      exact this

/-- **C81** The vertices, texture vertices and normals of an object are, in order, the correctly rounded
values of the `v`, `vt` and `vn` statements, with 1 and 0 for omitted coordinates. -/
theorem C81_obj {cfg : Cfg} {input : Bytes} (hlen : input.length < 2 ^ 63) {file : FileAst}
    (hf : FileOk cfg (tokens input) file) (hm : ∀ t ∈ tokens input, isFloat t = true → Moderate t)
    {r : ObjectSet F64} (h : Obj.parse cfg input = .ok r) {j : Nat}
    {ast : ObjAst} (ha : file.objects[j]? = some ast) : ∃ o, r.objects[j]? = some o ∧
      List.Forall₂ ReadsVertex (ast.items.filter isV) o.vertex_set ∧
      List.Forall₂ ReadsTexture (ast.items.filter isVT) o.texture_vertex_set ∧
      List.Forall₂ ReadsNormal (ast.items.filter isVN) o.normal_vertex_set := by
  have hn : ∀ it ∈ ast.items, ∀ t ∈ numberWords it, Reads t (FloatSem.value t) := fun it hit t ht =>
    have h1 := file_numbers hf ast (List.mem_of_getElem? ha) it hit t ht
    (C81_value h1.1 (hm t h1.2 h1.1) _).mp rfl
  obtain ⟨o, ho, h1, h2, h3⟩ := C18_vertex_data hlen hf h ha
  refine ⟨o, ho, ?_, ?_, ?_⟩
  · rw [h1]
    refine forall₂_filterMap fun it hit => ?_
    have := hn it hit
    cases it with
    | v x y z w => cases w <;> simp_all [numberWords, isV, ReadsVertex, C81_one]
    | _ => simp [isV]
  · rw [h2]
    refine forall₂_filterMap fun it hit => ?_
    have := hn it hit
    cases it with
    | vt u v w => cases v <;> cases w <;> simp_all [numberWords, isVT, ReadsTexture, C81_zero]
    | _ => simp [isVT]
  · rw [h3]
    refine forall₂_filterMap fun it hit => ?_
    have := hn it hit
    cases it with
    | vn x y z => simp_all [numberWords, isVN, ReadsNormal]
    | _ => simp [isVN]

end

section
open Verif.Mtl Verif.Spec.Mtl

/-- **C81** In a material the numbers of an attribute are the correctly rounded values of the last statement
about it. -/
theorem C81_mtl {input : Bytes} {r : MaterialSet F64} (h : Mtl.parse input = .ok r) {mats : List MatAst}
    (hf : FileOk (tokens input) mats) (hm : ∀ t ∈ tokens input, isFloat t = true → Moderate t)
    {j : Nat} {ast : MatAst} (ha : mats[j]? = some ast) {it : Item}
    (hi : Decides ast it) : ∃ m, r.materials[j]? = some m ∧
      List.Forall₂ Reads (mtlNumberWords it) (attrNumbers m (attr it)) := by
  obtain ⟨pre, post, hi, hp⟩ := hi
  obtain ⟨m, hm', -, hv⟩ := C30_last_wins h hf ha hi hp
  have hn : ∀ t ∈ mtlNumberWords it, Reads t (FloatSem.value t) := fun t ht =>
    have h1 := mtl_file_numbers hf ast (List.mem_of_getElem? ha) it (by simp [hi]) t ht
    (C81_value h1.1 (hm t h1.2 h1.1) _).mp rfl
  clear hm
  refine ⟨m, hm', ?_⟩
  cases it with
  | color s r g b => simp_all [HasValue, attrNumbers, attr, colorNumbers, mtlNumberWords]
  | num s x => cases s <;> simp_all [HasValue, attrNumbers, attr, mtlNumberWords]
  | illum => exact .nil
  | map => exact .nil

/-- **C81** Without a statement they are 0, and 1 for the dissolve factor. -/
theorem C81_mtl_default {input : Bytes} {r : MaterialSet F64} (h : Mtl.parse input = .ok r) {mats : List MatAst}
    (hf : FileOk (tokens input) mats) {j : Nat} {ast : MatAst} (ha : mats[j]? = some ast) {a : Attr}
    (hp : ∀ x ∈ ast.items, attr x ≠ a) : ∃ m, r.materials[j]? = some m ∧
      ∀ x ∈ attrNumbers m a, IsPlus x (if a = .num .dissolve then 1 else 0) := by
  obtain ⟨m, hm, hv⟩ := C30_default h hf ha hp
  refine ⟨m, hm, ?_⟩
  cases a with
  | color s => simp_all [HasDefault, attrNumbers, colorNumbers, C81_zero]
  | num s => cases s <;> simp_all [HasDefault, attrNumbers, C81_zero, C81_one]
  | illum => simp [attrNumbers]
  | map => simp [attrNumbers]

end

/-- **C81** Numbers that `f64` can represent are read exactly. -/
theorem C81_exact {t : Bytes} {neg : Bool} {q : ℚ} (hm : Moderate t) (h : Denotes t neg q) {bits : Nat} (hb : bits < infBits)
    (hq : q = signFactor neg * bitsValue bits) : FloatSem.value t = F64.num neg bits hb.le := by
  refine F64.Rounded_unique (F64.value_denotes hm h) ?_
  have := F64.rounded neg (a := F64.units bits) (b := 1) Nat.one_pos
  rw [Nat.cast_one, div_one, ← F64.bitsValue_eq, ← hq] at this
  have e : F64.roundBits (F64.units bits) 1 = bits := F64.roundBits_exact Nat.one_pos hb.le (by simp)
  simp only [e] at this
  exact this

theorem integer_bits {n : Nat} (h : n ≤ 2 ^ 53) : ∃ bits, bits < infBits ∧ (n : ℚ) = bitsValue bits := by
  rcases Nat.eq_zero_or_pos n with rfl | hn
  · exact ⟨0, by decide, by rw [F64.bitsValue_zero]; rfl⟩
  · -- shift to 53 bits
    obtain ⟨k, hk, h1, h2⟩ : ∃ k ≤ 52, 2 ^ 52 ≤ n * 2 ^ k ∧ n * 2 ^ k ≤ 2 ^ 53 := by
      have hlog := Nat.log2_self_le hn.ne'
      have hlt := Nat.lt_log2_self (n := n)
      by_cases hl : Nat.log2 n ≤ 52
      · refine ⟨52 - Nat.log2 n, by omega, ?_, ?_⟩
        · calc 2 ^ 52 = 2 ^ Nat.log2 n * 2 ^ (52 - Nat.log2 n) := by rw [← Nat.pow_add]; congr 1; omega
            _ ≤ _ := Nat.mul_le_mul_right _ hlog
        · calc n * 2 ^ (52 - Nat.log2 n) ≤ 2 ^ (Nat.log2 n + 1) * 2 ^ (52 - Nat.log2 n) := Nat.mul_le_mul_right _ hlt.le
            _ = 2 ^ 53 := by rw [← Nat.pow_add]; congr 1; omega
      · have : 2 ^ 53 ≤ 2 ^ Nat.log2 n := Nat.pow_le_pow_right (by decide) (by omega)
        exact ⟨0, by omega, by omega, by omega⟩
    refine ⟨(1074 - k) * 2 ^ 52 + n * 2 ^ k, ?_, ?_⟩
    · unfold infBits; omega
    · rw [F64.bitsValue_eq, F64.units_of (.inr h1) h2, Nat.mul_assoc, ← Nat.pow_add, show k + (1074 - k) = 1074 by omega,
        Nat.cast_mul, Nat.cast_pow]
      exact (mul_div_cancel_right₀ _ (by positivity)).symm

/-- **C81** Integers up to 2^53 are read exactly, whatever way they are written. -/
theorem C81_integer {t : Bytes} {neg : Bool} {n : Nat} (hm : Moderate t) (h : Denotes t neg (signFactor neg * n)) (hn : n ≤ 2 ^ 53) :
    IsNumber (FloatSem.value t) (signFactor neg * n) := by
  obtain ⟨bits, hb, e⟩ := integer_bits hn
  rw [C81_exact hm h hb (by rw [e]), e]
  exact ⟨_, hb⟩

theorem denotes_abs {t : Bytes} {neg : Bool} {q : ℚ} (h : Denotes t neg q) : q = signFactor neg * |q| := by
  obtain ⟨s, i, p, f, e, x, -, -, -, -, -, -, -, -, rfl⟩ := h
  rw [abs_mul, F64.signFactor_abs, one_mul,
    abs_of_nonneg (mul_nonneg (Nat.cast_nonneg _) (zpow_nonneg (by norm_num) _))]

theorem value_abs {t : Bytes} {neg : Bool} {q : ℚ} (hm : Moderate t) (h : Denotes t neg q) :
    FloatSem.value t = F64.num neg (F64.roundAbs |q|) (F64.roundAbs_le _) := by
  have := F64.value_denotes hm h
  rw [denotes_abs h] at this
  exact F64.roundAbs_of (abs_nonneg q) this

/-- **C81** Reading keeps the order of numbers: a numeral that denotes a number at most as large is not
read as a larger number. -/
theorem C81_order {t t' : Bytes} {neg neg' : Bool} {q q' : ℚ} (hm : Moderate t) (hm' : Moderate t')
    (h : Denotes t neg q) (h' : Denotes t' neg' q')
    (hq : q ≤ q') : ∃ o, FloatCmp.fcmp (FloatSem.value t : F64) (FloatSem.value t') = some o ∧ o ≠ .gt := by
  rw [value_abs hm h, value_abs hm' h']
  refine ⟨_, rfl, ?_⟩
  rw [ne_eq, Int.compare_eq_gt, not_lt]
  have e := denotes_abs h
  have e' := denotes_abs h'
  have n := abs_nonneg q
  have n' := abs_nonneg q'
  cases neg <;> cases neg' <;> simp only [signFactor, F64.position, Bool.false_eq_true, if_false, if_true] at *
  · have := F64.roundAbs_mono n (show |q| ≤ |q'| by linarith)
    omega
  · have hz : |q| = |q'| := by linarith
    have : |q'| = 0 := by linarith
    have hr : F64.roundAbs 0 = 0 := by decide +kernel
    rw [hz, this, hr]
    simp
  · omega
  · have := F64.roundAbs_mono n' (show |q'| ≤ |q| by linarith)
    omega

instance : IeeeEq F64 where
  value_self t ht := by
    have key : ∀ x : F64, FloatEq.feq x x = true ↔ x ≠ .nan := by
      intro x; cases x <;> simp [FloatEq.feq]
    rw [key, not_iff_not]
    constructor
    · intro h
      rcases F64.denotes_or ht with ⟨neg, q, hd⟩ | ⟨s, r, rfl, hs, hi | hi | hi⟩
      · obtain ⟨q', hx⟩ := F64.value_rounded hd
        obtain ⟨_, _, hc⟩ := hx.sign
        exact absurd (hc.symm.trans h) nofun
      · exact absurd ((F64.value_inf hs (.inl hi)).symm.trans h) nofun
      · exact absurd ((F64.value_inf hs (.inr hi)).symm.trans h) nofun
      · exact ⟨_, _, rfl, hs, hi⟩
    · rintro ⟨s, r, rfl, hs, hi⟩
      exact F64.value_nan hs hi
  zero_self := by decide
  one_self := by decide

/-! ## C82 -/

section
open Verif.Obj Verif.Spec.Obj
variable {F : Type} [FloatSem F] {cfg : Cfg} {lo hi : Counts}

/-- The words after a keyword, and the coordinates they give. -/
inductive Coordinates (F : Type) [FloatSem F] : Tok → List Tok → List F → Prop
  | v3 {x y z} : Coordinates F b!"v" [x, y, z] [FloatSem.value x, FloatSem.value y, FloatSem.value z, FloatSem.one]
  | v4 {x y z w} : Coordinates F b!"v" [x, y, z, w]
      [FloatSem.value x, FloatSem.value y, FloatSem.value z, FloatSem.value w]
  | vt1 {u} : Coordinates F b!"vt" [u] [FloatSem.value u, FloatSem.zero, FloatSem.zero]
  | vt2 {u v} : Coordinates F b!"vt" [u, v] [FloatSem.value u, FloatSem.value v, FloatSem.zero]
  | vt3 {u v w} : Coordinates F b!"vt" [u, v, w] [FloatSem.value u, FloatSem.value v, FloatSem.value w]
  | vn {x y z} : Coordinates F b!"vn" [x, y, z] [FloatSem.value x, FloatSem.value y, FloatSem.value z]

theorem noFloat_nl (rest : List Tok) : NoFloat (nl :: rest) := by
  intro t ht; cases ht; decide

theorem coordinates_run {kw : Tok} {ts ts' : List Tok} {xs : List F} (h : Coordinates F kw ts xs)
    (h' : Coordinates F kw ts' xs) (hf : ∀ t ∈ ts, isFloat t = true) (hf' : ∀ t ∈ ts', isFloat t = true) (Y : List Tok) :
    ∃ it it', Run cfg lo hi [it] (kw :: (ts ++ nl :: Y)) (nl :: Y) ∧
      Run cfg lo hi [it'] (kw :: (ts' ++ nl :: Y)) (nl :: Y) ∧ SameEffect F [it] [it'] := by
  have one : ∀ {ts} {xs : List F}, Coordinates F kw ts xs → (∀ t ∈ ts, isFloat t = true) →
      ∃ it, Stmt cfg lo hi it (kw :: (ts ++ nl :: Y)) (nl :: Y) ∧
        ((kw = b!"v" ∧ ∃ x y z w, it = .v x y z w ∧
          xs = [FloatSem.value x, FloatSem.value y, FloatSem.value z, (w.map FloatSem.value).getD FloatSem.one]) ∨
        (kw = b!"vt" ∧ ∃ u v w, it = .vt u v w ∧
          xs = [FloatSem.value u, (v.map FloatSem.value).getD FloatSem.zero, (w.map FloatSem.value).getD FloatSem.zero]) ∨
        (kw = b!"vn" ∧ ∃ x y z, it = .vn x y z ∧ xs = [FloatSem.value x, FloatSem.value y, FloatSem.value z])) := by
    intro ts xs h hf
    cases h <;> simp only [List.mem_cons, List.not_mem_nil, or_false, forall_eq_or_imp, forall_eq] at hf
    · exact ⟨_, .v3 hf.1 hf.2.1 hf.2.2 (noFloat_nl _), .inl ⟨rfl, _, _, _, _, rfl, rfl⟩⟩
    · exact ⟨_, .v4 hf.1 hf.2.1 hf.2.2.1 hf.2.2.2, .inl ⟨rfl, _, _, _, _, rfl, rfl⟩⟩
    · exact ⟨_, .vt1 hf (noFloat_nl _), .inr (.inl ⟨rfl, _, _, _, rfl, rfl⟩)⟩
    · exact ⟨_, .vt2 hf.1 hf.2 (noFloat_nl _), .inr (.inl ⟨rfl, _, _, _, rfl, rfl⟩)⟩
    · exact ⟨_, .vt3 hf.1 hf.2.1 hf.2.2, .inr (.inl ⟨rfl, _, _, _, rfl, rfl⟩)⟩
    · exact ⟨_, .vn hf.1 hf.2.1 hf.2.2, .inr (.inr ⟨rfl, _, _, _, rfl, rfl⟩)⟩
  obtain ⟨it, hs, hv⟩ := one h hf
  obtain ⟨it', hs', hv'⟩ := one h' hf'
  refine ⟨it, it', .stmt hs .nil, .stmt hs' .nil, ?_⟩
  rcases hv with ⟨rfl, x, y, z, w, rfl, e⟩ | ⟨rfl, u, v, w, rfl, e⟩ | ⟨rfl, x, y, z, rfl, e⟩ <;>
    rcases hv' with ⟨hk, x', y', z', w', rfl, e'⟩ | ⟨hk, u', v', w', rfl, e'⟩ | ⟨hk, x', y', z', rfl, e'⟩ <;>
    try exact absurd hk (by decide)
  · rw [e, List.cons.injEq, List.cons.injEq, List.cons.injEq, List.cons.injEq] at e'
    refine ⟨fun lo acc => ?_, fun _ => rfl, by simp [Bare, Item.isElement, Item.isUsemtl]⟩
    simp only [List.foldl_cons, List.foldl_nil, Acc.step, e'.1, e'.2.1, e'.2.2.1, e'.2.2.2.1]
  · rw [e, List.cons.injEq, List.cons.injEq, List.cons.injEq] at e'
    refine ⟨fun lo acc => ?_, fun _ => rfl, by simp [Bare, Item.isElement, Item.isUsemtl]⟩
    simp only [List.foldl_cons, List.foldl_nil, Acc.step, e'.1, e'.2.1, e'.2.2.1]
  · rw [e, List.cons.injEq, List.cons.injEq, List.cons.injEq] at e'
    refine ⟨fun lo acc => ?_, fun _ => rfl, by simp [Bare, Item.isElement, Item.isUsemtl]⟩
    simp only [List.foldl_cons, List.foldl_nil, Acc.step, e'.1, e'.2.1, e'.2.2.1]

theorem nls_floats {ts : List Tok} (h : ∀ t ∈ ts, isFloat t = true) : nls ts = 0 := by
  refine List.count_eq_zero.mpr fun hc => ?_
  exact absurd (h nl hc) (by decide)

/-- **C82** A `v`, `vt` or `vn` line can be exchanged for any other that gives the same coordinates: numbers
can be written in any way, and an omitted coordinate can be written out. -/
theorem C82_coordinates {a b l l' : Bytes} (hlen : (a ++ (l ++ 10 :: b)).length < 2 ^ 63)
    (hlen' : (a ++ (l' ++ 10 :: b)).length < 2 ^ 63) (ha : a = [] ∨ a.getLast? = some 10)
    (hat : AtStmt cfg (tokens (a ++ (l ++ 10 :: b))) lo hi (tokens (l ++ 10 :: b)))
    {kw : Tok} {ts ts' : List Tok} {xs : List F} (hl : tokens l = kw :: ts) (hl' : tokens l' = kw :: ts')
    (hf : ∀ t ∈ ts, isFloat t = true) (hf' : ∀ t ∈ ts', isFloat t = true)
    (h : Coordinates F kw ts xs) (h' : Coordinates F kw ts' xs) :
    (Obj.parse cfg (a ++ (l' ++ 10 :: b)) : Out ErrorKind (ObjectSet F)) = Obj.parse cfg (a ++ (l ++ 10 :: b)) := by
  have e : tokens (l ++ 10 :: b) = kw :: (ts ++ nl :: tokens b) := by rw [tokens_append_nl, hl]; rfl
  have e' : tokens (l' ++ 10 :: b) = kw :: (ts' ++ nl :: tokens b) := by rw [tokens_append_nl, hl']; rfl
  obtain ⟨it, it', hr, hr', he⟩ := coordinates_run (cfg := cfg) (lo := lo) (hi := hi) h h' hf hf' (tokens b)
  have hkw : kw ≠ nl := by cases h <;> decide
  rw [splice (n := 0) hlen hlen' ha hat (e ▸ hr) (e' ▸ hr') (by rw [e, e']; rfl) he
    (by rw [e, e', nls_stmt_line (nls_floats hf) hkw, nls_stmt_line (nls_floats hf') hkw]), shiftLine_zero]

end

/-- **C82** Two numerals that denote the same number with the same sign are read as the same `f64`. -/
theorem C82_numerals {t t' : Bytes} {neg : Bool} {q : ℚ} (hm : Moderate t) (hm' : Moderate t')
    (h : Denotes t neg q) (h' : Denotes t' neg q) : (FloatSem.value t : F64) = FloatSem.value t' :=
  F64.Rounded_unique (F64.value_denotes hm h) (F64.value_denotes hm' h')

/-! ## C83 -/

instance : LawfulFloat F64 where
  isFloat_display := F64.display_isFloat
  value_display := F64.value_display

/-- **C83** Every `f64` is printed as an accepted string that is read as the same `f64`. -/
theorem C83_read_back (x : F64) : Reads (FloatShow.display x) x :=
  (C81_value (F64.display_isFloat x) (F64.display_moderate x) x).mp (F64.value_display x)

/-- **C83** Different numbers are printed differently. -/
theorem C83_injective {x y : F64} (h : FloatShow.display x = FloatShow.display y) : x = y := by
  rw [← F64.value_display x, h, F64.value_display y]

/-- **C83** A finite number other than zero is printed as `d * 10^e`, where `e` is the largest exponent such
that a multiple of `10^e` is rounded to the number, and `d * 10^e` the nearest of these multiples. -/
theorem C83_shortest {neg : Bool} {bits : Nat} (h0 : 0 < bits) (h : bits < infBits) :
    ∃ (d : ℕ) (e : ℤ),
      Denotes (FloatShow.display (F64.num neg bits h.le)) neg (signFactor neg * (d * 10 ^ e)) ∧
      Rounded neg (signFactor neg * (d * 10 ^ e)) (.num neg bits h.le) ∧
      ∀ (d' : ℕ) (e' : ℤ), Rounded neg (signFactor neg * (d' * 10 ^ e')) (.num neg bits h.le) →
        e' ≤ e ∧ (e' = e → |(d : ℚ) * 10 ^ e - bitsValue bits| ≤ |(d' : ℚ) * 10 ^ e' - bitsValue bits|) := by
  have iff : ∀ (d : ℕ) (e : ℤ), F64.shortest.roundsTo bits d e = true ↔
      Rounded neg (signFactor neg * (d * 10 ^ e)) (.num neg bits h.le) := by
    intro d e
    rw [F64.roundsTo_abs h.le]
    constructor
    · intro he
      have := F64.roundAbs_rounded neg (F64.decimal_nonneg d e)
      simp only [he] at this
      exact this
    · intro hr
      have := F64.roundAbs_of (F64.decimal_nonneg d e) hr
      rw [F64.num.injEq] at this
      exact this.2.symm
  have hs := F64.shortest_rounds h.le 1384 309 (by decide) (by decide)
  obtain ⟨b1, b2⟩ := F64.shortest_best h.le 1384 309 (by decide) (by decide)
  refine ⟨(F64.shortest bits 1384 309).1, (F64.shortest bits 1384 309).2, ?_, (iff _ _).mp hs, fun d' e' hr => ?_⟩
  · rw [F64.display_other neg (by omega) (by omega)]
    exact F64.plain_denotes neg _ _
  · rw [← iff] at hr
    have hle : e' ≤ (F64.shortest bits 1384 309).2 := by
      by_contra hc
      rw [b1 d' e' (by omega) (F64.roundsTo_small h0 h hr)] at hr
      cases hr
    refine ⟨hle, ?_⟩
    intro he
    rw [he] at hr ⊢
    exact b2 d' hr

/-- **C83** A finite number is printed with digits, a minus sign in front and a point only. -/
theorem C83_plain {neg : Bool} {bits : Nat} (h : bits < infBits) :
    ∃ s, FloatShow.display (F64.num neg bits h.le) = (if neg then b!"-" else []) ++ s ∧
      ∀ c ∈ s, 48 ≤ c ∧ c ≤ 57 ∨ c = 46 := by
  by_cases h0 : bits = 0
  · subst h0
    exact ⟨_, F64.display_zero neg, by decide⟩
  · exact ⟨_, F64.display_other neg (by omega) h0, F64.plain_chars _ _⟩

/-- **C83** There are no superfluous zeros in front of a finite number, nor after the point, and a point only
if digits follow. -/
theorem C83_canonical {neg : Bool} {bits : Nat} (h : bits < infBits) : ∃ i f,
    FloatShow.display (F64.num neg bits h.le) =
      (if neg then b!"-" else []) ++ (i ++ if f = [] then [] else b!"." ++ f) ∧
      DigitsStar i ∧ DigitsStar f ∧ i ≠ [] ∧ (i = b!"0" ∨ i.head? ≠ some 48) ∧ f.getLast? ≠ some 48 := by
  by_cases h0 : bits = 0
  · subst h0
    refine ⟨b!"0", [], (by rw [F64.display_zero]; rfl), ?_, (by intro c hc; cases hc), by decide, .inl rfl, by simp⟩
    intro c hc; rw [List.mem_singleton.mp hc]; decide
  · have hs := F64.shortest_rounds h.le 1384 309 (by decide) (by decide)
    obtain ⟨b1, -⟩ := F64.shortest_best h.le 1384 309 (by decide) (by decide)
    rw [F64.display_other neg (by omega) h0]
    generalize F64.shortest bits 1384 309 = p at hs b1
    obtain ⟨d, x⟩ := p
    simp only at hs b1 ⊢
    have hd : 0 < d := by
      rcases Nat.eq_zero_or_pos d with rfl | hd
      · rw [F64.roundsTo_abs h.le, Nat.cast_zero, zero_mul, show F64.roundAbs 0 = 0 by decide +kernel] at hs
        exact absurd hs.symm h0
      · exact hd
    obtain ⟨i, f, e, hi, hf, hne, hz, hl⟩ := F64.plain_canonical (d := d) (x := x) hd (by
      intro hx hc
      obtain ⟨k, rfl⟩ := Nat.dvd_of_mod_eq_zero hc
      have := b1 k (x + 1) (by omega) (by omega)
      rw [Bool.eq_false_iff, ne_eq, F64.roundsTo_abs h.le] at this
      rw [F64.roundsTo_abs h.le] at hs
      apply this
      rw [← hs, zpow_add_one₀ (by norm_num)]
      congr 1
      push_cast
      ring)
    exact ⟨i, f, by rw [e], hi, hf, hne, hz.imp_left And.left, hl⟩

/-- **C83** The rest: NaN, infinity and zero, with their signs. -/
theorem C83_others : FloatShow.display F64.nan = b!"NaN" ∧
    (∀ neg, FloatShow.display (F64.num neg infBits (Nat.le_refl _)) = (if neg then b!"-" else []) ++ b!"inf") ∧
    ∀ neg, FloatShow.display (F64.num neg 0 (Nat.zero_le _)) = (if neg then b!"-" else []) ++ b!"0" :=
  ⟨rfl, fun neg => F64.display_inf neg, fun neg => F64.display_zero neg⟩

/-- **C83** Printing the data of a parsed object and reading them again gives the same numbers: C34 with the
numbers of `f64`. -/
theorem C83_object {cfg : Obj.Cfg} {input : Bytes} (hlen : input.length < 2 ^ 63) {r : Obj.ObjectSet F64}
    (h : Obj.parse cfg input = .ok r) {o : Obj.Object F64} (ho : o ∈ r.objects) (hne : o.element_set ≠ []) :
    ∃ text, dump cfg o = some text ∧ (text.length < 2 ^ 63 →
      ∃ o' : Obj.Object F64, Obj.parse cfg text = .ok ⟨[], [o']⟩ ∧ o'.vertex_set = o.vertex_set ∧
        o'.texture_vertex_set = o.texture_vertex_set ∧ o'.normal_vertex_set = o.normal_vertex_set ∧
        o'.element_set = o.element_set) := by
  obtain ⟨text, h1, h2⟩ := C34_object hlen h ho hne
  refine ⟨text, h1, fun hl => ?_⟩
  obtain ⟨o', h3, -, h4⟩ := h2 hl
  exact ⟨o', h3, h4⟩

/-! ## Examples -/

/-- A numeral that is not a number of `f64`: it is between two of them. -/
example : Denotes b!"-0.1e0" true (-(1 / 10)) ∧
    FloatSem.value b!"-0.1e0" = F64.num true 4591870180066957722 (by decide) := by
  refine ⟨⟨b!"-", b!"0", b!".", b!"1", b!"e0", 0, rfl, .inr (.inr rfl), by decide, ?_, ?_, .inl (by decide), .inl rfl,
    ExponentIs.plus (e := b!"e") (s := []) (ds := b!"0") (.inl rfl) (.inl rfl) ?_ (by decide), ?_⟩, by decide +kernel⟩
  · intro c hc; rw [List.mem_singleton.mp hc]; decide
  · intro c hc; rw [List.mem_singleton.mp hc]; decide
  · intro c hc; rw [List.mem_singleton.mp hc]; decide
  · rw [show decimal (b!"0" ++ b!"1") = 1 by decide +kernel]
    norm_num [signFactor]

/-- The printed forms of some numbers, and where rounding matters. -/
example : FloatShow.display (FloatSem.value b!"0.1" : F64) = b!"0.1" ∧
    FloatShow.display (FloatSem.value b!"-0" : F64) = b!"-0" ∧
    (FloatSem.value b!"9007199254740993" : F64) = FloatSem.value b!"9007199254740992" ∧
    (FloatSem.value b!"9007199254740995" : F64) = FloatSem.value b!"9007199254740996" ∧
    (FloatSem.value b!"1e309" : F64) = FloatSem.value b!"INFinity" ∧
    (FloatSem.value b!"1e-400" : F64) = FloatSem.zero ∧
    (FloatSem.value b!"1.7976931348623158e308" : F64) ≠ FloatSem.value b!"inf" := by
  decide +kernel

/-- C82 after three vertices, in front of any other text. -/
example (b : Bytes) (hlen : b.length < 2 ^ 62) :
    (Obj.parse debug (b!"v 0 0 0\nv 0 0 1\nv 0 1 0\n" ++ (b!"v .5 +1e1 0 1.0" ++ 10 :: b)) :
      Out Obj.ErrorKind (Obj.ObjectSet F64)) =
    Obj.parse debug (b!"v 0 0 0\nv 0 0 1\nv 0 1 0\n" ++ (b!"v 0.50 10 0" ++ 10 :: b)) := by
  refine C82_coordinates (kw := b!"v") (ts := [b!"0.50", b!"10", b!"0"]) (ts' := [b!".5", b!"+1e1", b!"0", b!"1.0"])
    ?_ ?_ (.inr (by decide)) (at_line _ b) (by decide +kernel) (by decide +kernel) (by decide) (by decide) .v3 ?_
  · simp; omega
  · simp; omega
  · have e1 : (FloatSem.value b!"0.50" : F64) = FloatSem.value b!".5" := by decide +kernel
    have e2 : (FloatSem.value b!"10" : F64) = FloatSem.value b!"+1e1" := by decide +kernel
    have e3 : (FloatSem.one : F64) = FloatSem.value b!"1.0" := by decide +kernel
    rw [e1, e2, e3]
    exact .v4

/-- An OBJ text read with the numbers of `f64`. -/
example : (match (Obj.parse debug b!"v 0.1 -1e1 1e400\nvt 3\nv 1 2 3 nan\np 1\n" : Out Obj.ErrorKind (Obj.ObjectSet F64)) with
    | .ok r => r.objects.map fun o => (o.vertex_set, o.texture_vertex_set)
    | _ => []) =
    [([⟨.num false 4591870180066957722 (by decide), .num true 4621819117588971520 (by decide), .num false infBits (by decide),
        .num false 4607182418800017408 (by decide)⟩,
       ⟨.num false 4607182418800017408 (by decide), .num false 4611686018427387904 (by decide),
        .num false 4613937818241073152 (by decide), .nan⟩],
      [⟨.num false 4613937818241073152 (by decide), .num false 0 (by decide), .num false 0 (by decide)⟩])] := by
  decide +kernel

end Verif.Props
