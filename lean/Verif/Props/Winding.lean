import Mathlib.Algebra.BigOperators.Group.List.Basic
import Mathlib.Tactic.Abel
import Verif.Props.Convex

/-!
# Property C101: circulation and winding numbers

Whatever is summed along directed edges and changes its sign with their direction has the same sum
around a polygon and around the triangles it is cut into. So the triangles surround a point as often
as the polygon does, whether it is convex or not.
-/

namespace Verif.Spec.Mesh

open Verif Verif.Obj Verif.Spec.Obj

section
variable {F V A : Type} [AddCommGroup A]

/-- The sum along the sides of a polygon. -/
def around (w : V → V → A) (c : List V) : A := ((cycle c).map fun e => w e.1 e.2).sum

/-- The sum along the sides of a triangle. -/
def circulation (w : Vertex F → Vertex F → A) : ElementData F → A
  | .face a b c => around w [vertexOf a, vertexOf b, vertexOf c]
  | _ => 0
end

section
variable {F R : Type} [CommRing R] [LinearOrder R]

/-- How the side from `p` to `q` crosses the ray from `x` to the right: upwards, downwards or not at all.
An end of the side that is at the height of `x` counts as below it. -/
def crossing (x p q : R × R) : Int :=
  if p.2 ≤ x.2 ∧ x.2 < q.2 ∧ 0 < left p q x then 1
  else if q.2 ≤ x.2 ∧ x.2 < p.2 ∧ left p q x < 0 then -1 else 0

/-- How often a polygon surrounds the point `x` counterclockwise: its winding number. -/
def winding (x : R × R) (c : List (R × R)) : Int := around (crossing x) c

/-- Whether a triangle surrounds `x` counterclockwise (1), clockwise (-1) or not at all (0). -/
def surrounds (X : Vertex F → R × R) (x : R × R) : ElementData F → Int
  | .face a b c => if Within X x (.face a b c) then 1 else if Within X x (.face c b a) then -1 else 0
  | _ => 0

/-- The point `x` is not on the line through two corners of a triangle. -/
def Off (X : Vertex F → R × R) (x : R × R) : ElementData F → Prop
  | .face a b c => ∀ e ∈ cycle [X (vertexOf a), X (vertexOf b), X (vertexOf c)], left e.1 e.2 x ≠ 0
  | _ => True
end

end Verif.Spec.Mesh

namespace Verif.Props

open Verif Verif.Spec Verif.Spec.Obj Verif.Obj Verif.Spec.Mesh

section
variable {V A : Type} [AddCommGroup A]

theorem fan_around {w : V → V → A} (hw : ∀ p q, w q p = -w p q) (p q : V) (l : List V) :
    (List.zipWith (fun a b => around w [p, a, b]) (q :: l) l).sum = around w (p :: q :: l) := by
  induction l generalizing q with
  | nil => simp [around, cycle, walk, hw p q]
  | cons s l ih =>
    rw [List.zipWith_cons_cons, List.sum_cons, ih]
    simp only [around, cycle, walk, List.cons_append, List.nil_append, List.map_cons, List.map_nil, List.sum_cons,
      List.sum_nil, hw p s]
    abel

end

section
variable {R : Type} [CommRing R] [LinearOrder R] [IsStrictOrderedRing R]

theorem crossing_swap (x p q : R × R) : crossing x q p = -crossing x p q := by
  unfold crossing
  rw [left_swap p q x]
  by_cases h1 : p.2 ≤ x.2 ∧ x.2 < q.2 ∧ 0 < left p q x
  · have h2 : ¬ (q.2 ≤ x.2 ∧ x.2 < p.2 ∧ 0 < -left p q x) := fun h => absurd h.1 (not_le.mpr h1.2.1)
    rw [if_pos h1, if_neg h2, if_pos ⟨h1.1, h1.2.1, by linarith [h1.2.2]⟩]
  · rw [if_neg h1]
    by_cases h2 : q.2 ≤ x.2 ∧ x.2 < p.2 ∧ left p q x < 0
    · rw [if_pos h2, if_pos ⟨h2.1, h2.2.1, by linarith [h2.2.2]⟩]
      rfl
    · rw [if_neg h2, if_neg fun h => h2 ⟨h.1, h.2.1, by linarith [h.2.2]⟩,
        if_neg fun h => h1 ⟨h.1, h.2.1, by linarith [h.2.2]⟩]
      rfl

theorem crossing_eq (x p q : R × R) : crossing x p q =
    if p.2 - x.2 ≤ 0 ∧ 0 < q.2 - x.2 ∧ 0 < left p q x then 1
    else if q.2 - x.2 ≤ 0 ∧ 0 < p.2 - x.2 ∧ left p q x < 0 then -1 else 0 := by
  simp only [crossing, sub_nonpos, sub_pos]

theorem signs {A B C u v w : R} (h1 : u ≠ 0) (h2 : v ≠ 0) (h3 : w ≠ 0) (h : v * A + w * B + u * C = 0)
    (h0 : A = 0 → B = 0 → False) :
    (if A ≤ 0 ∧ 0 < B ∧ 0 < u then 1 else if B ≤ 0 ∧ 0 < A ∧ u < 0 then -1 else 0 : Int) +
      (if B ≤ 0 ∧ 0 < C ∧ 0 < v then 1 else if C ≤ 0 ∧ 0 < B ∧ v < 0 then -1 else 0) +
      (if C ≤ 0 ∧ 0 < A ∧ 0 < w then 1 else if A ≤ 0 ∧ 0 < C ∧ w < 0 then -1 else 0) =
    if 0 < u ∧ 0 < v ∧ 0 < w then 1 else if u < 0 ∧ v < 0 ∧ w < 0 then -1 else 0 := by
  have ht : ∀ z : R, (z ≤ 0 ∧ ¬ 0 < z) ∨ (0 < z ∧ ¬ z ≤ 0) := fun z =>
    (le_or_gt z 0).imp (fun h => ⟨h, not_lt.mpr h⟩) fun h => ⟨h, not_le.mpr h⟩
  have hn : ∀ z : R, z ≠ 0 → (z < 0 ∧ ¬ 0 < z) ∨ (0 < z ∧ ¬ z < 0) := fun z hz =>
    (lt_or_gt_of_ne hz).imp (fun h => ⟨h, not_lt.mpr h.le⟩) fun h => ⟨h, not_lt.mpr h.le⟩
  have key : 0 ≤ v * A → 0 ≤ w * B → 0 ≤ u * C → False := fun p q r =>
    h0 ((mul_eq_zero.mp (show v * A = 0 by linarith)).resolve_left h2)
      ((mul_eq_zero.mp (show w * B = 0 by linarith)).resolve_left h3)
  rcases ht A with ⟨hA, hA'⟩ | ⟨hA, hA'⟩ <;> rcases ht B with ⟨hB, hB'⟩ | ⟨hB, hB'⟩ <;>
    rcases ht C with ⟨hC, hC'⟩ | ⟨hC, hC'⟩ <;> rcases hn u h1 with ⟨hu, hu'⟩ | ⟨hu, hu'⟩ <;>
    rcases hn v h2 with ⟨hv, hv'⟩ | ⟨hv, hv'⟩ <;> rcases hn w h3 with ⟨hw, hw'⟩ | ⟨hw, hw'⟩ <;>
    first
    | (simp only [hA, hA', hB, hB', hC, hC', hu, hu', hv, hv', hw, hw', and_true, and_false, and_self, if_true, if_false]
       done)
    | (simp only [hA, hA', hB, hB', hC, hC', hu, hu', hv, hv', hw, hw', and_true, and_false, and_self, if_true, if_false]
       decide)
    | exact (key (by nlinarith) (by nlinarith) (by nlinarith)).elim

/-- The sides of a triangle wind once around the points in it, and not around others. -/
theorem winding_triangle (x a b c : R × R) (h1 : left a b x ≠ 0) (h2 : left b c x ≠ 0) (h3 : left c a x ≠ 0) :
    crossing x a b + crossing x b c + crossing x c a =
      if 0 < left a b x ∧ 0 < left b c x ∧ 0 < left c a x then 1
      else if left a b x < 0 ∧ left b c x < 0 ∧ left c a x < 0 then -1 else 0 := by
  have key : left b c x * (a.2 - x.2) + left c a x * (b.2 - x.2) + left a b x * (c.2 - x.2) = 0 := by
    simp only [left, det, Prod.fst_sub, Prod.snd_sub]
    ring
  rw [crossing_eq, crossing_eq, crossing_eq]
  refine signs h1 h2 h3 key fun hA hB => h1 ?_
  have e : left a b x = (a.2 - x.2) * (x.1 - b.1) + (b.2 - x.2) * (a.1 - x.1) := by
    simp only [left, det, Prod.fst_sub, Prod.snd_sub]
    ring
  rw [e, hA, hB]
  ring

end

/-! ## The triangles of a statement -/

variable {F : Type} [FloatSem F] {cfg : Cfg} {input : Bytes} {r : ObjectSet F}

omit [FloatSem F] in
theorem data_vertex {vs : List (Vertex F)} {ts : List (TextureVertex F)} {ns : List (NormalVertex F)} {ref : Ref}
    {t : VTNTriple F} (h : Ref.data vs ts ns ref = some t) : vs[ref.v - 1]? = some (vertexOf t) := by
  unfold Ref.data at h
  generalize vs[ref.v - 1]? = x at h ⊢
  cases x with
  | none => simp at h
  | some v =>
    repeat' split at h
    all_goals first
      | (simp only [Option.some.injEq] at h; subst h; simp_all [vertexOf])
      | cases h

section
variable (hlen : input.length < 2 ^ 63) {file : FileAst} (hf : FileOk cfg (tokens input) file)
  (h : Obj.parse cfg input = .ok r) {j : Nat} {ast : ObjAst} (ha : file.objects[j]? = some ast)
  {pre post : List Item} {refs : List Ref} (hi : ast.items = pre ++ .f refs :: post)
include hlen hf h ha hi

/-- The triangles of a polygon, as a list. -/
theorem fan_list : ∃ o, r.objects[j]? = some o ∧ ∃ a b l,
    refs.filterMap (fun ref => ((file.objects.flatMap ObjAst.items).filterMap Item.vertex?)[ref.v - 1]?) =
      (a :: b :: l).map vertexOf ∧
    ((o.element_set.drop (sizes pre)).take (refs.length - 2)).filterMap (Obj.lookup o) =
      List.zipWith (ElementData.face a) (b :: l) l := by
  obtain ⟨o, ho, hd, -⟩ := C19_indices_denote hlen hf h ha
  refine ⟨o, ho, ?_⟩
  have h3 : 3 ≤ refs.length := by
    have := (parsed_object hlen hf h ha).2
    rw [hi] at this
    exact items_polygon this
  have hw : ∀ ref ∈ refs, ∃ t, Ref.data ((file.objects.flatMap ObjAst.items).filterMap Item.vertex?)
        ((file.objects.flatMap ObjAst.items).filterMap Item.texture?)
        ((file.objects.flatMap ObjAst.items).filterMap Item.normal?) ref = some t := fun ref href => by
    obtain ⟨t, ht, -⟩ := written_data hlen hf h ha (it := .f refs) (by rw [hi]; simp) (ref := ref)
      (by simpa [Item.refs] using href) (R := Int) (X := fun _ => 0)
    exact ⟨t, ht⟩
  have e : ((o.element_set.drop (sizes pre)).take (refs.length - 2)).filterMap (Obj.lookup o) =
      (Item.drawn (Ref.data ((file.objects.flatMap ObjAst.items).filterMap Item.vertex?)
        ((file.objects.flatMap ObjAst.items).filterMap Item.texture?)
        ((file.objects.flatMap ObjAst.items).filterMap Item.normal?)) (.f refs)).filterMap id := by
    have : ((o.element_set.drop (sizes pre)).take (refs.length - 2)).map (Obj.lookup o) =
        Item.drawn (Ref.data ((file.objects.flatMap ObjAst.items).filterMap Item.vertex?)
          ((file.objects.flatMap ObjAst.items).filterMap Item.texture?)
          ((file.objects.flatMap ObjAst.items).filterMap Item.normal?)) (.f refs) := by
      rw [List.map_take, List.map_drop, hd, hi, List.flatMap_append, List.flatMap_cons,
        List.drop_left' (drawn_lengths _ _), List.take_left' (show _ = refs.length - 2 from drawn_length _ _)]
    rw [← this, List.filterMap_map]
    rfl
  rw [e]
  clear e hd
  revert hw
  generalize (file.objects.flatMap ObjAst.items).filterMap (Item.vertex? (F := F)) = vs
  generalize (file.objects.flatMap ObjAst.items).filterMap (Item.texture? (F := F)) = ts
  generalize (file.objects.flatMap ObjAst.items).filterMap (Item.normal? (F := F)) = ns
  intro hw
  match refs, h3, hw with
  | z :: y :: refs, h3, hw =>
    clear h3
    obtain ⟨a, ha⟩ := hw z (by simp)
    have hw' : ∀ ref ∈ y :: refs, ∃ t, Ref.data vs ts ns ref = some t := fun ref hr => hw ref (List.mem_cons_of_mem _ hr)
    clear hw hi
    obtain ⟨b, hb⟩ := hw' y (by simp)
    have key : ∃ l, (y :: refs).filterMap (fun ref => vs[ref.v - 1]?) = (b :: l).map vertexOf ∧
        (Item.drawn (Ref.data vs ts ns) (.f (z :: y :: refs))).filterMap id =
          List.zipWith (ElementData.face a) (b :: l) l := by
      simp only [Item.drawn, List.tail_cons]
      induction refs generalizing y b with
      | nil => exact ⟨[], by simp [data_vertex hb], by simp⟩
      | cons w refs ih =>
        obtain ⟨c, hc⟩ := hw' w (by simp)
        obtain ⟨l, h1, h2⟩ := ih w (fun ref hr => hw' ref (List.mem_cons_of_mem _ hr)) c hc
        refine ⟨c :: l, ?_, ?_⟩
        · rw [List.filterMap_cons, data_vertex hb, h1]
          rfl
        · rw [List.zipWith_cons_cons, ha, hb, hc, List.zipWith_cons_cons, ← h2]
          simp [ha]
    obtain ⟨l, h1, h2⟩ := key
    exact ⟨a, b, l, by rw [List.filterMap_cons, data_vertex ha, h1]; rfl, h2⟩

/-- **C101** Whatever is summed along directed edges and changes its sign with the direction has the
same sum around a polygon as around the triangles it is cut into. -/
theorem C101_circulation {A : Type} [AddCommGroup A] {w : Vertex F → Vertex F → A} (hw : ∀ p q, w q p = -w p q) :
    ∃ o, r.objects[j]? = some o ∧
      ((((o.element_set.drop (sizes pre)).take (refs.length - 2)).filterMap (Obj.lookup o)).map (circulation w)).sum =
        around w (refs.filterMap fun ref =>
          ((file.objects.flatMap ObjAst.items).filterMap Item.vertex?)[ref.v - 1]?) := by
  obtain ⟨o, ho, a, b, l, h1, h2⟩ := fan_list hlen hf h ha hi
  refine ⟨o, ho, ?_⟩
  rw [h1, h2, List.map_cons, List.map_cons, ← fan_around hw, List.map_zipWith, ← List.map_cons, List.zipWith_map]
  rfl

/-- **C101** The triangles of a polygon surround a point as often as the polygon does: its winding
number is the number of triangles that the point is in, minus those that are passed clockwise. -/
theorem C101_winding {R : Type} [CommRing R] [LinearOrder R] [IsStrictOrderedRing R] (X : Vertex F → R × R) :
    ∃ o, r.objects[j]? = some o ∧ ∀ x : R × R,
      (∀ d ∈ ((o.element_set.drop (sizes pre)).take (refs.length - 2)).filterMap (Obj.lookup o), Off X x d) →
      ((((o.element_set.drop (sizes pre)).take (refs.length - 2)).filterMap (Obj.lookup o)).map (surrounds X x)).sum =
        winding x (refs.filterMap fun ref =>
          (((file.objects.flatMap ObjAst.items).filterMap Item.vertex?)[ref.v - 1]?).map X) := by
  obtain ⟨o, ho, -⟩ := fan_list hlen hf h ha hi
  refine ⟨o, ho, fun x hx => ?_⟩
  obtain ⟨o', ho', hc⟩ := C101_circulation hlen hf h ha hi (w := fun p q => crossing x (X p) (X q))
    fun p q => crossing_swap x (X p) (X q)
  rw [ho] at ho'
  cases ho'
  have e : winding x (refs.filterMap fun ref =>
      (((file.objects.flatMap ObjAst.items).filterMap Item.vertex?)[ref.v - 1]?).map X) =
      around (fun p q => crossing x (X p) (X q)) (refs.filterMap fun ref =>
          ((file.objects.flatMap ObjAst.items).filterMap Item.vertex?)[ref.v - 1]?) := by
    rw [← List.map_filterMap, winding, around, around, ← cycle_map, relabel, List.map_map]
    rfl
  rw [e, ← hc]
  congr 1
  refine List.map_congr_left fun d hd => ?_
  have hoff := hx d hd
  cases d with
  | face a b c =>
    simp only [Off, cycle, walk, List.cons_append, List.nil_append, List.forall_mem_cons] at hoff
    have := winding_triangle x _ _ _ hoff.1 hoff.2.1 hoff.2.2.1
    simp only [circulation, around, surrounds, Within, cycle, walk, List.cons_append, List.nil_append, List.forall_mem_cons,
      List.map_cons, List.map_nil, List.sum_cons, List.sum_nil]
    rw [add_zero, ← add_assoc, this]
    rw [left_swap (X (vertexOf b)) (X (vertexOf c)) x, left_swap (X (vertexOf a)) (X (vertexOf b)) x,
      left_swap (X (vertexOf c)) (X (vertexOf a)) x]
    simp only [Left.neg_pos_iff]
    congr 1
    · simp
    · congr 1
      simp
      tauto
  | line => rfl
  | point => rfl

end

/-! ## A polygon that is not convex -/

/-- A quadrilateral with a notch, whose first triangle covers the notch and is passed clockwise. -/
def notched : FileAst := ⟨[], [⟨b!"n", [.v b!"5" b!"1" b!"0" none, .v b!"2" b!"2" b!"0" none,
  .v b!"1" b!"5" b!"0" none, .v b!"0" b!"0" b!"0" none, .p [1],
  .f [⟨1, none, none⟩, ⟨2, none, none⟩, ⟨3, none, none⟩, ⟨4, none, none⟩]]⟩]⟩

theorem notched_valid : ValidFile notched := by
  refine ⟨by decide, .inr (by decide), ?_, by decide, trivial⟩
  simp only [ValidItems, ValidItem, Uniform, ValidRef]; decide +kernel

instance {R F : Type} [CommRing R] [LinearOrder R] (X : Vertex F → R × R) (x : R × R) : DecidablePred (Off X x)
  | .face a b c => inferInstanceAs
      (Decidable (∀ e ∈ cycle [X (vertexOf a), X (vertexOf b), X (vertexOf c)], left e.1 e.2 x ≠ 0))
  | .line _ _ => inferInstanceAs (Decidable True)
  | .point _ => inferInstanceAs (Decidable True)

/-- The triangles of the notched quadrilateral. -/
theorem notched_triangles : ∀ o ∈ (meaning notched : ObjectSet Bytes).objects.head?,
    (∀ x ∈ [((3, 2) : Int × Int), (1, 1)], ∀ d ∈ ((o.element_set.drop 1).take 2).filterMap (Obj.lookup o), Off digits x d) ∧
    (((o.element_set.drop 1).take 2).filterMap (Obj.lookup o)).map (surrounds digits (3, 2)) = [-1, 1] ∧
    (((o.element_set.drop 1).take 2).filterMap (Obj.lookup o)).map (surrounds digits (1, 1)) = [0, 1] := by
  have h : (match (meaning notched : ObjectSet Bytes).objects.head? with
    | some o => decide ((∀ x ∈ [((3, 2) : Int × Int), (1, 1)], ∀ d ∈ ((o.element_set.drop 1).take 2).filterMap (Obj.lookup o), Off digits x d) ∧
      (((o.element_set.drop 1).take 2).filterMap (Obj.lookup o)).map (surrounds digits (3, 2)) = [-1, 1] ∧
      (((o.element_set.drop 1).take 2).filterMap (Obj.lookup o)).map (surrounds digits (1, 1)) = [0, 1])
    | none => false) = true := by decide +kernel
  intro o ho
  rw [ho] at h
  exact of_decide_eq_true h

/-- The hypotheses of `C101_winding` hold for the point (3, 2), which is in the notch and in a triangle of each
orientation, and for the point (1, 1) in the polygon; the winding numbers are 0 and 1. -/
example : (let c := [(5, 1), (2, 2), (1, 5), ((0, 0) : Int × Int)]; winding (3, 2) c = 0 ∧ winding (1, 1) c = 1) := by
  have hl : notched.text.length < 2 ^ 63 := by decide +kernel
  have hp := C28_write_read (F := Bytes) (cfg := debug) notched_valid hl
  obtain ⟨o, ho, hx⟩ := C101_winding hl (file_text debug notched_valid hl) hp (j := 0) rfl
    (pre := [.v b!"5" b!"1" b!"0" none, .v b!"2" b!"2" b!"0" none,
      .v b!"1" b!"5" b!"0" none, .v b!"0" b!"0" b!"0" none, .p [1]]) rfl digits
  obtain ⟨h1, h2, h3⟩ := notched_triangles o (by rw [Option.mem_def, List.head?_eq_getElem?, ho])
  have e2 := hx (3, 2) (h1 _ (by simp))
  have e3 := hx (1, 1) (h1 _ (by simp))
  refine ⟨?_, ?_⟩
  · refine Eq.trans ?_ (e2.symm.trans (congrArg List.sum h2))
    exact congrArg (winding (3, 2)) (by decide +kernel)
  · refine Eq.trans ?_ (e3.symm.trans (congrArg List.sum h3))
    exact congrArg (winding (1, 1)) (by decide +kernel)

end Verif.Props
