import Verif.Proofs.Cut
import Verif.Proofs.ObjMeaning

/-!
# Swapping two lines that are not elements
-/

namespace Verif.Spec.Obj

open Verif Verif.Obj

variable {cfg : Cfg} {lo hi : Counts} {F : Type} [FloatSem F]

/-- The word a statement starts with. -/
def Item.word : Item → Tok
  | .v .. => b!"v"
  | .vt .. => b!"vt"
  | .vn .. => b!"vn"
  | .g _ => b!"g"
  | .s _ => b!"s"
  | .usemtl _ => b!"usemtl"
  | .p _ => b!"p"
  | .l _ => b!"l"
  | .f _ => b!"f"

theorem stmt_head {it toks rest} (h : Stmt cfg lo hi it toks rest) : toks.head? = some it.word := by
  cases h <;> rfl

theorem word_facts (it : Item) :
    it.word ≠ nl ∧ it.word ≠ b!"o" ∧ it.word ≠ b!"mtllib" ∧ isFloat it.word = false := by
  cases it <;> (refine ⟨?_, ?_, ?_, ?_⟩ <;> simp only [Item.word] <;> decide)

/-- Which token sequences are a given statement other than an element does not depend on what
has been defined. -/
theorem stmt_anywhere {cfg' : Cfg} {lo' hi' : Counts} {it toks rest} (h : Stmt cfg lo hi it toks rest)
    (he : it.isElement = false) : Stmt cfg' lo' hi' it toks rest := by
  cases h with
  | v3 h1 h2 h3 h4 => exact .v3 h1 h2 h3 h4
  | v4 h1 h2 h3 h4 => exact .v4 h1 h2 h3 h4
  | vt1 h1 h2 => exact .vt1 h1 h2
  | vt2 h1 h2 h3 => exact .vt2 h1 h2 h3
  | vt3 h1 h2 h3 => exact .vt3 h1 h2 h3
  | vn h1 h2 h3 => exact .vn h1 h2 h3
  | g h1 h2 => exact .g h1 h2
  | s h1 => exact .s h1
  | usemtl => exact .usemtl
  | p => cases he
  | l => cases he
  | f => cases he

/-- A line consisting of one statement that is not an element. -/
structure Line (it : Item) (X : List Tok) : Prop where
  stmt : Stmt ⟨true, true⟩ {} {} it X []
  plain : it.isElement = false

theorem Line.at {it X} (h : Line it X) (cfg : Cfg) (lo hi : Counts) (Y : List Tok) :
    Stmt cfg lo hi it (X ++ nl :: Y) (nl :: Y) ∨ Stmt cfg lo hi it (X ++ nl :: Y) Y :=
  stmt_append_nl (stmt_anywhere h.stmt h.plain) Y

theorem Line.head {it X} (h : Line it X) (Y : List Tok) : (X ++ Y).head? = some it.word := by
  have := stmt_head h.stmt
  cases X with
  | nil => cases this
  | cons t X => exact this

/-- What follows after a line. -/
theorem body_after_line {it X items Y rest} (h : Line it X) (hb : Body cfg lo hi items (X ++ nl :: Y) rest) :
    ∃ items', items = it :: items' ∧ Body cfg lo (hi + it.counts) items' Y rest := by
  have hh := h.head (nl :: Y)
  generalize e : X ++ nl :: Y = toks at hb hh
  cases hb with
  | done hd =>
    rcases hd with rfl | hd
    · cases hh
    · rw [hd] at hh
      exact absurd (Option.some.inj hh).symm (word_facts it).2.1
  | blank =>
    exact absurd (Option.some.inj hh).symm (word_facts it).1
  | @stmt _ it' items' _ mid _ hs hb =>
    subst e
    rcases h.at cfg lo hi Y with h' | h'
    · obtain ⟨rfl, rfl⟩ := stmt_unique hs h'
      refine ⟨_, rfl, ?_⟩
      generalize e : nl :: Y = toks at hb
      cases hb with
      | done hd => subst e; exact absurd hd bodyEnd_not_nl
      | blank hb => obtain rfl := (List.cons.inj e).2; exact hb
      | stmt hs => subst e; exact absurd hs stmt_not_nl
    · obtain ⟨rfl, rfl⟩ := stmt_unique hs h'
      exact ⟨_, rfl, hb⟩

theorem body_line_cons {it X items Y rest} (h : Line it X) (hb : Body cfg lo (hi + it.counts) items Y rest) :
    Body cfg lo hi (it :: items) (X ++ nl :: Y) rest := by
  rcases h.at cfg lo hi Y with h' | h'
  · exact .stmt h' (.blank hb)
  · exact .stmt h' hb

/-- `b` is `a` with two lines swapped. -/
def Swapped (X Y a b : List Tok) : Prop :=
  ∃ A B, (A = [] ∨ A.getLast? = some nl) ∧ a = A ++ (X ++ nl :: (Y ++ nl :: B)) ∧
    b = A ++ (Y ++ nl :: (X ++ nl :: B))

theorem swapped_symm {X Y a b : List Tok} (h : Swapped X Y a b) : Swapped Y X b a := by
  obtain ⟨A, B, h1, h2, h3⟩ := h
  exact ⟨A, B, h1, h3, h2⟩

/-- Lists of statements with the same effect. -/
structure SameEffect (F : Type) [FloatSem F] (a b : List Item) : Prop where
  fold : ∀ lo (acc : Acc F), a.foldl (Acc.step lo) acc = b.foldl (Acc.step lo) acc
  counts : ∀ c : Counts, a.foldl (fun c it => c + it.counts) c = b.foldl (fun c it => c + it.counts) c
  bare : Bare a ↔ Bare b

theorem SameEffect.refl (a : List Item) : SameEffect F a a := ⟨fun _ _ => rfl, fun _ => rfl, Iff.rfl⟩

theorem SameEffect.cons {a b : List Item} (h : SameEffect F a b) (it : Item) : SameEffect F (it :: a) (it :: b) where
  fold lo acc := h.fold lo _
  counts c := h.counts _
  bare := by
    simp only [Bare, List.mem_cons, forall_eq_or_imp]
    exact and_congr_right fun _ => h.bare

theorem counts_swap (c x y : Counts) : c + x + y = c + y + x := by
  simp only [counts_add, Counts.mk.injEq]
  omega

theorem step_swap {x y : Item} (hx : x.isElement = false) (hy : y.isElement = false) (hxy : x.word ≠ y.word)
    (lo : Counts) (a : Acc F) : (a.step lo x).step lo y = (a.step lo y).step lo x := by
  by_cases hm : a.ofMaterial = []
  all_goals
    cases x <;> cases y <;> first
      | exact absurd rfl hxy
      | exact Bool.noConfusion hx
      | exact Bool.noConfusion hy
      | rfl
      | (simp [Acc.step, hm])

theorem sameEffect_swap {x y : Item} (hx : x.isElement = false) (hy : y.isElement = false) (hxy : x.word ≠ y.word)
    (items : List Item) : SameEffect F (x :: y :: items) (y :: x :: items) where
  fold lo acc := by
    simp only [List.foldl_cons]
    rw [step_swap hx hy hxy]
  counts c := by
    simp only [List.foldl_cons]
    rw [counts_swap]
  bare := by
    simp only [Bare, List.mem_cons, forall_eq_or_imp]
    tauto

theorem append_inside {A B body mid : List Tok} {last : Tok} (hb : nl ∉ body) (hA : A.getLast? = some nl)
    (e : A ++ B = body ++ last :: mid) :
    ∃ A', (A' = [] ∨ A'.getLast? = some nl) ∧ A = body ++ last :: A' ∧ mid = A' ++ B := by
  induction body generalizing A with
  | nil =>
    cases A with
    | nil => cases hA
    | cons t A =>
      simp only [List.cons_append, List.nil_append, List.cons.injEq] at e
      obtain ⟨rfl, rfl⟩ := e
      refine ⟨A, ?_, rfl, rfl⟩
      cases A with
      | nil => exact .inl rfl
      | cons u A => right; simpa using hA
  | cons t body ih =>
    simp only [List.mem_cons, not_or] at hb
    cases A with
    | nil => cases hA
    | cons u A =>
      simp only [List.cons_append, List.cons.injEq] at e
      obtain ⟨rfl, e⟩ := e
      cases A with
      | nil =>
        simp only [List.getLast?_singleton, Option.some.injEq] at hA
        exact absurd hA.symm hb.1
      | cons w A =>
        obtain ⟨A', h1, h2, h3⟩ := ih hb.2 (by simpa using hA) e
        exact ⟨A', h1, by rw [h2]; rfl, h3⟩

theorem swapped_ne {X Y a b : List Tok} (h : Swapped X Y a b) : a ≠ [] ∧ b ≠ [] := by
  obtain ⟨A, B, -, rfl, rfl⟩ := h
  constructor <;> simp

section
variable {x y : Item} {X Y : List Tok} (hx : Line x X) (hy : Line y Y) (hxy : x.word ≠ y.word)
include hx hy

theorem swapped_head {a b : List Tok} (h : Swapped X Y a b) :
    b.head? = a.head? ∨ (a.head? = some x.word ∧ b.head? = some y.word) := by
  obtain ⟨A, B, -, rfl, rfl⟩ := h
  cases A with
  | nil => exact .inr ⟨hx.head _, hy.head _⟩
  | cons => exact .inl rfl

theorem swapped_replaces {a b : List Tok} (h : Swapped X Y a b) : Replaces a b := by
  refine ⟨?_, fun e => absurd e (swapped_ne h).1⟩
  rcases swapped_head hx hy h with h | ⟨-, h⟩
  · exact .inl h
  · refine .inr fun t ht => ?_
    rw [h] at ht
    obtain rfl := Option.some.inj ht
    exact (word_facts y).2.2.2

include hxy

theorem body_swap (F : Type) [FloatSem F] {items toks rest toks'} (h : Body cfg lo hi items toks rest) (hd : Swapped X Y toks toks') :
    (∃ items', SameEffect F items items' ∧ Body cfg lo hi items' toks' rest) ∨
      ∃ rest', Swapped X Y rest rest' ∧ Body cfg lo hi items toks' rest' := by
  obtain ⟨A, B, hA, e, rfl⟩ := hd
  induction h generalizing A with
  | @done hi rest h =>
    refine .inr ⟨_, ⟨A, B, hA, e, rfl⟩, .done ?_⟩
    have hsw : Swapped X Y rest (A ++ (Y ++ nl :: (X ++ nl :: B))) := ⟨A, B, hA, e, rfl⟩
    rcases swapped_head hx hy hsw with h' | ⟨h', -⟩
    · exact bodyEnd_head h (swapped_ne hsw).1 h'
    · rcases h with h | h
      · exact absurd h (swapped_ne hsw).1
      · rw [h] at h'
        exact absurd (Option.some.inj h').symm (word_facts x).2.1
  | @blank hi items toks rest h ih =>
    cases A with
    | nil =>
      have := hx.head (nl :: (Y ++ nl :: B))
      rw [List.nil_append] at e
      rw [← e] at this
      exact absurd (Option.some.inj this).symm (word_facts x).1
    | cons t A =>
      simp only [List.cons_append, List.cons.injEq] at e
      obtain ⟨rfl, rfl⟩ := e
      have hA' : A = [] ∨ A.getLast? = some nl := by
        cases A with
        | nil => exact .inl rfl
        | cons u A => right; simpa using hA
      rcases ih A hA' rfl with ⟨items', h1, h2⟩ | ⟨rest', h1, h2⟩
      · exact .inl ⟨items', h1, .blank h2⟩
      · exact .inr ⟨rest', h1, .blank h2⟩
  | @stmt hi it items toks mid rest hs hb ih =>
    cases A with
    | nil =>
      rw [List.nil_append] at e
      obtain ⟨i1, h1, b1⟩ := body_after_line (cfg := cfg) (lo := lo) hx (e ▸ Body.stmt hs hb)
      obtain ⟨i2, h2, b2⟩ := body_after_line hy b1
      rw [counts_swap] at b2
      refine .inl ⟨y :: x :: i2, ?_, body_line_cons hy (body_line_cons hx b2)⟩
      rw [h1, h2]
      exact sameEffect_swap hx.plain hy.plain hxy i2
    | cons t A =>
      obtain ⟨body, last, rfl, hn, hr⟩ := stmt_shape hs
      obtain ⟨A', hA', e1, e2⟩ := append_inside hn (by simpa using hA) e.symm
      have hsw : Swapped X Y mid (A' ++ (Y ++ nl :: (X ++ nl :: B))) := ⟨A', B, hA', e2, rfl⟩
      have hs' := hr _ (swapped_replaces hx hy hsw)
      rw [e1, List.append_assoc, List.cons_append]
      rcases ih A' hA' e2 with ⟨items', h1, h2⟩ | ⟨rest', h1, h2⟩
      · exact .inl ⟨it :: items', h1.cons it, .stmt hs' h2⟩
      · exact .inr ⟨rest', h1, .stmt hs' h2⟩

omit hxy in
theorem header_swap {name toks mid toks'} (h : Header toks name mid) (hd : Swapped X Y toks toks') :
    ∃ mid', Swapped X Y mid mid' ∧ Header toks' name mid' := by
  cases h with
  | @implicit t rest h =>
    refine ⟨toks', hd, ?_⟩
    have hh := swapped_head hx hy hd
    cases toks' with
    | nil => exact absurd rfl (swapped_ne hd).2
    | cons t' rest' =>
      refine .implicit ?_
      rcases hh with hh | ⟨-, hh⟩
      · rw [Option.some.inj hh]; exact h
      · rw [Option.some.inj hh]; exact (word_facts y).2.1
  | named =>
    obtain ⟨A, B, hA, e, rfl⟩ := hd
    match A, hA, e with
    | [], _, e =>
      have := hx.head (nl :: (Y ++ nl :: B))
      rw [List.nil_append] at e
      rw [← e] at this
      exact absurd (Option.some.inj this).symm (word_facts x).2.1
    | [t], hA, e =>
      simp only [List.cons_append, List.cons.injEq] at e
      obtain ⟨rfl, -⟩ := e
      simp at hA
    | [t, u], hA, e =>
      simp only [List.cons_append, List.cons.injEq, List.nil_append] at e
      have := hx.head (nl :: (Y ++ nl :: B))
      rw [← e.2.2] at this
      exact absurd (Option.some.inj this).symm (word_facts x).1
    | t :: u :: w :: A, hA, e =>
      simp only [List.cons_append, List.cons.injEq] at e
      obtain ⟨rfl, rfl, rfl, rfl⟩ := e
      refine ⟨_, ⟨A, B, ?_, rfl, rfl⟩, .named⟩
      cases A with
      | nil => exact .inl rfl
      | cons v A => right; simpa using hA

theorem objects_swap (F : Type) [FloatSem F] {objs toks toks'} (h : Objects cfg lo objs toks) (hd : Swapped X Y toks toks') :
    ∃ objs', Objects cfg lo objs' toks' ∧ (objectsMeaning lo objs' : List (Object F)) = objectsMeaning lo objs := by
  induction h generalizing toks' with
  | done => exact absurd rfl (swapped_ne hd).1
  | @obj lo name items objs toks mid rest hh hb hn ho ih =>
    obtain ⟨mid', hd', hh'⟩ := header_swap hx hy hh hd
    rcases body_swap hx hy hxy F hb hd' with ⟨items', hs, hb'⟩ | ⟨rest', hd'', hb'⟩
    · have hc : countsOf items' = countsOf items := (hs.counts {}).symm
      refine ⟨⟨name, items'⟩ :: objs, .obj hh' hb' (fun h => hn (hs.bare.mpr h)) (hc ▸ ho), ?_⟩
      simp only [objectsMeaning, hc, objMeaning, hs.fold]
    · obtain ⟨objs', h1, h2⟩ := ih hd''
      exact ⟨⟨name, items⟩ :: objs', .obj hh' hb' hn h1, by simp only [objectsMeaning, h2]⟩

omit hxy in
theorem libs_swap {toks libs rest toks'} (h : Libs toks libs rest) (hd : Swapped X Y toks toks') :
    ∃ rest', Swapped X Y rest rest' ∧ Libs toks' libs rest' := by
  obtain ⟨A, B, hA, e, rfl⟩ := hd
  induction h generalizing A with
  | @done toks h1 h2 =>
    have hsw : Swapped X Y toks (A ++ (Y ++ nl :: (X ++ nl :: B))) := ⟨A, B, hA, e, rfl⟩
    refine ⟨_, hsw, ?_⟩
    rcases swapped_head hx hy hsw with h | ⟨-, h⟩
    · exact .done (by rwa [h]) (by rwa [h])
    · refine .done ?_ ?_ <;> rw [h]
      · exact fun h => (word_facts y).1 (Option.some.inj h)
      · exact fun h => (word_facts y).2.2.1 (Option.some.inj h)
  | @blank toks libs rest h ih =>
    cases A with
    | nil =>
      have := hx.head (nl :: (Y ++ nl :: B))
      rw [List.nil_append] at e
      rw [← e] at this
      exact absurd (Option.some.inj this).symm (word_facts x).1
    | cons t A =>
      simp only [List.cons_append, List.cons.injEq] at e
      obtain ⟨rfl, rfl⟩ := e
      have hA' : A = [] ∨ A.getLast? = some nl := by
        cases A with
        | nil => exact .inl rfl
        | cons u A => right; simpa using hA
      obtain ⟨rest', h1, h2⟩ := ih A hA' rfl
      exact ⟨rest', h1, .blank h2⟩
  | @line names mid toks libs rest hn he h ih =>
    cases A with
    | nil =>
      have := hx.head (nl :: (Y ++ nl :: B))
      rw [List.nil_append] at e
      rw [← e] at this
      exact absurd (Option.some.inj this).symm (word_facts x).2.2.1
    | cons t A =>
      have hn' : nl ∉ b!"mtllib" :: names := by simp [hn]
      rcases he with rfl | ⟨rfl, rfl⟩
      · obtain ⟨A', hA', e1, e2⟩ := append_inside hn' (by simpa using hA) e.symm
        obtain ⟨rest', h1, h2⟩ := ih A' hA' e2
        refine ⟨rest', h1, ?_⟩
        rw [e1]
        simpa using Libs.line hn (.inl rfl) h2
      · exfalso
        have : nl ∈ t :: A := List.mem_of_getLast? (by simpa using hA)
        apply hn'
        rw [List.append_nil] at e
        rw [e]
        exact List.mem_append_left _ this

theorem file_swap (F : Type) [FloatSem F] {toks file toks'} (h : FileOk cfg toks file) (hd : Swapped X Y toks toks') :
    ∃ file', FileOk cfg toks' file' ∧ (meaning file' : ObjectSet F) = meaning file := by
  obtain ⟨rest, hl, ho⟩ := h
  obtain ⟨rest', hd', hl'⟩ := libs_swap hx hy hl hd
  obtain ⟨objs', h1, h2⟩ := objects_swap hx hy hxy F ho hd'
  exact ⟨⟨file.libs, objs'⟩, ⟨rest', hl', h1⟩, by simp only [meaning, h2]⟩

end

end Verif.Spec.Obj
