import Verif.Props.Split
import Verif.Props.Materials

/-!
# Property C80: names are just names
-/

namespace Verif.Props

open Verif Verif.Spec

/-- What a word of the file is, by what stands in front of it. -/
inductive Mode where
  | word
  /-- a name, with its new name -/
  | name (f : Bytes → Bytes)
  /-- names up to the end of the line -/
  | names (f : Bytes → Bytes)

/-- Put new names into a list of words; `after` says what a keyword is followed by. -/
def putNames (after : Tok → Mode) : Mode → List Tok → List Tok
  | _, [] => []
  | .word, t :: ts => t :: putNames after (after t) ts
  | .name f, t :: ts => f t :: putNames after .word ts
  | .names f, t :: ts => if t = nl then t :: putNames after .word ts else f t :: putNames after (.names f) ts

/-- New names never are line ends, and line ends stay line ends. -/
def KeepsLines (f : Bytes → Bytes) : Prop := ∀ t, f t = nl ↔ t = nl

section
variable {after : Tok → Mode}

theorem putNames_head (ts : List Tok) : (putNames after .word ts).head? = ts.head? := by
  cases ts <;> rfl

theorem nls_cons (t : Tok) (ts : List Tok) : nls (t :: ts) = nls ts + if t = nl then 1 else 0 := by
  simp only [nls, List.count_cons]
  by_cases h : t = nl <;> simp [h]

theorem nls_putNames (hk : ∀ t f, after t = .name f ∨ after t = .names f → KeepsLines f) (m : Mode)
    (hm : ∀ f, m = .name f ∨ m = .names f → KeepsLines f) (ts : List Tok) : nls (putNames after m ts) = nls ts := by
  induction ts generalizing m with
  | nil => cases m <;> rfl
  | cons t ts ih =>
    cases m with
    | word =>
      rw [putNames, nls_cons, nls_cons, ih _ (hk t)]
    | name f =>
      have := hm f (.inl rfl) t
      rw [putNames, nls_cons, nls_cons, ih _ (by rintro _ (h | h) <;> cases h)]
      simp only [this]
    | names f =>
      have := hm f (.inr rfl) t
      rw [putNames]
      split
      · rw [nls_cons, nls_cons, ih _ (by rintro _ (h | h) <;> cases h)]
      · rw [nls_cons, nls_cons, ih _ hm]
        simp only [this]

theorem putNames_word {t : Tok} (h : after t = .word) (ts : List Tok) :
    putNames after .word (t :: ts) = t :: putNames after .word ts := by
  rw [putNames, h]

theorem putNames_words {xs : List Tok} (h : ∀ t ∈ xs, after t = .word) (ts : List Tok) :
    putNames after .word (xs ++ ts) = xs ++ putNames after .word ts := by
  induction xs with
  | nil => rfl
  | cons x xs ih =>
    rw [List.cons_append, putNames_word (h x (by simp)), ih fun t ht => h t (by simp [ht]), List.cons_append]

theorem putNames_all {xs : List Tok} (h : ∀ t ∈ xs, after t = .word) : putNames after .word xs = xs := by
  simpa [putNames] using putNames_words h []

theorem putNames_line {f : Bytes → Bytes} {names mid rest : List Tok} (h : nl ∉ names) (he : Spec.Obj.EndLine mid rest) :
    ∃ mid', putNames after (.names f) (names ++ mid) = names.map f ++ mid' ∧
      Spec.Obj.EndLine mid' (putNames after .word rest) := by
  induction names with
  | nil =>
    rcases he with rfl | ⟨rfl, rfl⟩
    · exact ⟨_, rfl, .inl rfl⟩
    · exact ⟨[], rfl, .inr ⟨rfl, rfl⟩⟩
  | cons x xs ih =>
    obtain ⟨mid', h1, h2⟩ := ih fun h' => h (by simp [h'])
    refine ⟨mid', ?_, h2⟩
    rw [List.cons_append, putNames, if_neg (fun e => h (by simp [e])), h1, List.map_cons, List.cons_append]

end

/-- What becomes of a result. -/
def onValue {K α : Type} (f : α → α) : Out K α → Out K α
  | .ok a => .ok (f a)
  | .err e => .err e
  | .panic x => .panic x
  | .outOfFuel => .outOfFuel

/-! ## OBJ files -/

namespace ObjNames

open Verif.Obj Verif.Spec.Obj

/-- New names for libraries, objects, groups and materials. -/
structure Renaming where
  library : Bytes → Bytes
  object : Bytes → Bytes
  group : Bytes → Bytes
  material : Bytes → Bytes

/-- The two names that the parser makes up are kept, and so are lines. -/
structure Renaming.Ok (ρ : Renaming) : Prop where
  library : KeepsLines ρ.library
  object : KeepsLines ρ.object
  group : KeepsLines ρ.group
  material : KeepsLines ρ.material
  noName : ρ.object [] = []
  default : ρ.group b!"default" = b!"default"

/-- What follows a word. -/
def Renaming.after (ρ : Renaming) (t : Tok) : Mode :=
  if t = b!"g" then .names ρ.group
  else if t = b!"mtllib" then .names ρ.library
  else if t = b!"usemtl" then .name ρ.material
  else if t = b!"o" then .name ρ.object
  else .word

/-- The words of a file with new names. -/
def Renaming.toks (ρ : Renaming) (ts : List Tok) : List Tok := putNames ρ.after .word ts

/-- On a line, none of the four keywords comes after a line or face keyword. (A line or face statement
takes the word after it for a part of it, whatever it is.) -/
def Orderly (ts : List Tok) : Prop :=
  ∀ pre mid post : List Tok, ∀ kw kw', ts = pre ++ kw :: (mid ++ kw' :: post) → kw = b!"l" ∨ kw = b!"f" →
    kw' ∈ [b!"g", b!"mtllib", b!"usemtl", b!"o"] → nl ∈ mid

/-- An object set with new names. -/
def Renaming.obj {F : Type} (ρ : Renaming) (o : Object F) : Object F :=
  { o with
    name := ρ.object o.name
    group_set := o.group_set.map fun g => ⟨ρ.group g.name⟩
    geometry_set := o.geometry_set.map fun g => { g with material_name := g.material_name.map ρ.material } }

def Renaming.set {F : Type} (ρ : Renaming) (s : ObjectSet F) : ObjectSet F :=
  { material_libraries := s.material_libraries.map ρ.library
    objects := s.objects.map ρ.obj }

/-! ### Files -/

def Renaming.item (ρ : Renaming) : Item → Item
  | .g names => .g (names.map ρ.group)
  | .usemtl name => .usemtl (ρ.material name)
  | it => it

def Renaming.ast (ρ : Renaming) (o : ObjAst) : ObjAst := ⟨ρ.object o.name, o.items.map ρ.item⟩

def Renaming.file (ρ : Renaming) (f : FileAst) : FileAst := ⟨f.libs.map ρ.library, f.objects.map ρ.ast⟩

variable {cfg : Cfg} {lo hi : Counts} {ρ : Renaming}

theorem counts_item (it : Item) : (ρ.item it).counts = it.counts := by cases it <;> rfl

theorem countsOf_items (its : List Item) : countsOf (its.map ρ.item) = countsOf its := by
  simp only [countsOf, List.foldl_map, counts_item]

theorem bare_items (its : List Item) : Bare (its.map ρ.item) ↔ Bare its := by
  have : ∀ it : Item, (ρ.item it).isElement = it.isElement ∧ (ρ.item it).isUsemtl = it.isUsemtl := by
    intro it; cases it <;> exact ⟨rfl, rfl⟩
  simp only [Bare, List.forall_mem_map, this]

def kws : List Tok := [b!"g", b!"mtllib", b!"usemtl", b!"o"]

theorem after_word {t : Tok} (h : t ∉ kws) : ρ.after t = .word := by
  simp only [kws, List.mem_cons, List.not_mem_nil, or_false, not_or] at h
  obtain ⟨h1, h2, h3, h4⟩ := h
  simp [Renaming.after, h1, h2, h3, h4]

theorem not_kw {p : Tok → Prop} {t : Tok} (h : p t) (hp : ∀ t ∈ kws, ¬ p t) : t ∉ kws := fun hk => hp t hk h

theorem after_float {t : Tok} (h : isFloat t = true) : ρ.after t = .word :=
  after_word (not_kw (p := fun t => isFloat t = true) h (by decide))

theorem after_smooth {t : Tok} {n : Nat} (h : SmoothTok t n) : ρ.after t = .word := by
  rcases h with ⟨rfl, -⟩ | ⟨-, h⟩
  · exact after_word (by decide)
  · exact after_word (not_kw (p := fun t => parseUsize t ≠ none) (by simp [h]) (by decide))

theorem after_num {l h' : Nat} {t : Tok} {k : Nat} (h : NumTok l h' t k) : ρ.after t = .word :=
  after_word (not_kw (p := fun t => parseIsize t ≠ none) (by simp [h.1]) (by decide))

theorem ref_not_kw {t : Tok} {r : Ref} (h : RefTok lo hi t r) : t ∉ kws ∧ t ≠ nl := by
  have : parseIsize (piece t 0) ≠ none := by
    rcases h.v with ⟨-, h⟩ | ⟨k, -, h, -⟩
    · cases h
    · simp [h.1]
  refine ⟨not_kw (p := fun t => parseIsize (piece t 0) ≠ none) this (by decide), ?_⟩
  rintro rfl
  exact absurd this (by decide)

theorem after_ref {t : Tok} {r : Ref} (h : RefTok lo hi t r) : ρ.after t = .word := after_word (ref_not_kw h).1

theorem forall₂_after {α β γ : Type} {R : α → β → Prop} {f : α → γ} {c : γ} {xs : List α} {ys : List β}
    (h : List.Forall₂ R xs ys) (hR : ∀ a b, R a b → f a = c) : ∀ a ∈ xs, f a = c := by
  induction h with
  | nil => simp
  | cons h _ ih => simpa using ⟨hR _ _ h, ih⟩

theorem orderly_suffix {ts rest : List Tok} (h : Orderly ts) (hs : rest <:+ ts) : Orderly rest := by
  obtain ⟨p, rfl⟩ := hs
  intro pre mid post kw kw' e h1 h2
  exact h (p ++ pre) mid post kw kw' (by rw [e, List.append_assoc]) h1 h2

theorem stop_names {mid rest : List Tok} (h : Stop cfg lo hi mid rest) :
    ∃ m, Stop cfg lo hi (putNames ρ.after .word mid) (putNames ρ.after m rest) ∧ (m = .word ∨ ∃ t, m = ρ.after t) ∧
      ((∀ t ∈ mid.head?, t ∉ kws) → m = .word) := by
  rcases h with ⟨t, k, e, rfl, h⟩ | ⟨rfl, rfl⟩
  · exact ⟨ρ.after t, .inl ⟨t, k, e, rfl, h⟩, .inr ⟨t, rfl⟩, fun h => after_word (h t rfl)⟩
  · exact ⟨.word, .inr ⟨rfl, rfl⟩, .inl rfl, fun _ => rfl⟩

theorem stop_orderly {kw : Tok} {ts mid rest : List Tok} {refs : List Ref} (hk : kw = b!"l" ∨ kw = b!"f")
    (ho : Orderly (kw :: (ts ++ mid))) (hr : List.Forall₂ (RefTok lo hi) ts refs)
    (hs : Stop cfg lo hi mid rest) : Stop cfg lo hi (putNames ρ.after .word mid) (putNames ρ.after .word rest) := by
  obtain ⟨m, h, -, hm⟩ := stop_names (ρ := ρ) hs
  obtain rfl : m = .word := by
    refine hm fun t ht hk' => ?_
    obtain ⟨mid', rfl⟩ : ∃ mid', mid = t :: mid' := by
      cases mid with
      | nil => cases ht
      | cons t' mid => cases ht; exact ⟨_, rfl⟩
    have := ho [] ts mid' kw t rfl hk hk'
    clear ho hs h hm
    induction hr with
    | nil => cases this
    | cons hr _ ih =>
      rcases List.mem_cons.mp this with h | h
      · exact (ref_not_kw hr).2 h.symm
      · exact ih h
  exact h

theorem no_nl {f : Bytes → Bytes} (hf : KeepsLines f) {names : List Bytes} (h : nl ∉ names) : nl ∉ names.map f := by
  intro hm
  obtain ⟨n, hn, e⟩ := List.mem_map.mp hm
  exact h ((hf n).mp e ▸ hn)

theorem stmt_names (hρ : ρ.Ok) {it : Item} {toks rest : List Tok} (h : Stmt cfg lo hi it toks rest) (ho : Orderly toks) :
    Stmt cfg lo hi (ρ.item it) (putNames ρ.after .word toks) (putNames ρ.after .word rest) := by
  have nof : ∀ {r}, NoFloat r → NoFloat (putNames ρ.after .word r) := by
    intro r hr
    rw [NoFloat, putNames_head]
    exact hr
  have kw : ∀ {t}, t ∉ kws → ∀ ts, putNames ρ.after .word (t :: ts) = t :: putNames ρ.after .word ts :=
    fun h ts => putNames_word (after_word h) ts
  have fl : ∀ {t}, isFloat t = true → ∀ ts, putNames ρ.after .word (t :: ts) = t :: putNames ρ.after .word ts :=
    fun h ts => putNames_word (after_float h) ts
  cases h with
  | v3 h1 h2 h3 h4 => rw [kw (by decide), fl h1, fl h2, fl h3]; exact .v3 h1 h2 h3 (nof h4)
  | v4 h1 h2 h3 h4 => rw [kw (by decide), fl h1, fl h2, fl h3, fl h4]; exact .v4 h1 h2 h3 h4
  | vt1 h1 h4 => rw [kw (by decide), fl h1]; exact .vt1 h1 (nof h4)
  | vt2 h1 h2 h4 => rw [kw (by decide), fl h1, fl h2]; exact .vt2 h1 h2 (nof h4)
  | vt3 h1 h2 h3 => rw [kw (by decide), fl h1, fl h2, fl h3]; exact .vt3 h1 h2 h3
  | vn h1 h2 h3 => rw [kw (by decide), fl h1, fl h2, fl h3]; exact .vn h1 h2 h3
  | g h1 h2 =>
    obtain ⟨mid', e, h'⟩ := putNames_line (after := ρ.after) (f := ρ.group) h1 h2
    have : putNames ρ.after .word (b!"g" :: (_ ++ _)) = _ := congrArg (b!"g" :: ·) e
    rw [this]
    exact .g (no_nl hρ.group h1) h'
  | s h1 =>
    rw [kw (by decide), putNames_word (after_smooth h1)]
    exact .s h1
  | usemtl => exact .usemtl
  | p h1 h2 h3 =>
    rw [kw (by decide), putNames_words (forall₂_after h2 fun _ _ h => after_num h)]
    refine .p h1 h2 ?_
    rcases h3 with rfl | ⟨rfl, rfl⟩
    · exact .inl (kw (by decide) _)
    · exact .inr ⟨rfl, rfl⟩
  | l h1 h2 h3 h4 =>
    have := stop_orderly (ρ := ρ) (.inl rfl) ho h2 h4
    rw [kw (by decide), putNames_words (forall₂_after h2 fun _ _ h => after_ref h)]
    exact .l h1 h2 h3 this
  | f h1 h2 h3 h4 =>
    have := stop_orderly (ρ := ρ) (.inr rfl) ho h2 h4
    rw [kw (by decide), putNames_words (forall₂_after h2 fun _ _ h => after_ref h)]
    exact .f h1 h2 h3 this

/-- A rejected statement is still rejected, for the same reason. -/
theorem stmtErr_names {toks rest : List Tok} {k e} (h : StmtErr cfg lo hi toks k e rest) :
    ∃ m, (m = .word ∨ ∃ t, m = ρ.after t) ∧
      StmtErr cfg lo hi (putNames ρ.after .word toks) k e (putNames ρ.after m rest) := by
  have kw : ∀ {t}, t ∉ kws → ∀ ts, putNames ρ.after .word (t :: ts) = t :: putNames ρ.after .word ts :=
    fun h ts => putNames_word (after_word h) ts
  have any : ∀ t ts, putNames ρ.after .word (t :: ts) = t :: putNames ρ.after (ρ.after t) ts := fun _ _ => rfl
  cases h with
  | v_eof h1 h2 =>
    refine ⟨.word, .inl rfl, ?_⟩
    rw [kw (by decide), putNames_all fun t ht => after_float (h2 t ht)]
    exact .v_eof h1 h2
  | @v_bad _ t _ h1 h2 h3 =>
    refine ⟨ρ.after t, .inr ⟨t, rfl⟩, ?_⟩
    rw [kw (by decide), putNames_words fun t ht => after_float (h2 t ht), any]
    exact .v_bad h1 h2 h3
  | vt_eof => exact ⟨.word, .inl rfl, .vt_eof⟩
  | @vt_bad t _ h1 =>
    refine ⟨ρ.after t, .inr ⟨t, rfl⟩, ?_⟩
    rw [kw (by decide), any]
    exact .vt_bad h1
  | vn_eof h1 h2 =>
    refine ⟨.word, .inl rfl, ?_⟩
    rw [kw (by decide), putNames_all fun t ht => after_float (h2 t ht)]
    exact .vn_eof h1 h2
  | @vn_bad _ t _ h1 h2 h3 =>
    refine ⟨ρ.after t, .inr ⟨t, rfl⟩, ?_⟩
    rw [kw (by decide), putNames_words fun t ht => after_float (h2 t ht), any]
    exact .vn_bad h1 h2 h3
  | s_eof => exact ⟨.word, .inl rfl, .s_eof⟩
  | @s_bad t _ h1 =>
    refine ⟨ρ.after t, .inr ⟨t, rfl⟩, ?_⟩
    rw [kw (by decide), any]
    exact .s_bad h1
  | usemtl_eof => exact ⟨.word, .inl rfl, .usemtl_eof⟩
  | p_eof => exact ⟨.word, .inl rfl, .p_eof⟩
  | @p_bad _ _ t _ _ _ h1 h2 h3 =>
    refine ⟨ρ.after t, .inr ⟨t, rfl⟩, ?_⟩
    rw [kw (by decide), putNames_words (forall₂_after h1 fun _ _ h => after_num h), any]
    exact .p_bad h1 h2 h3
  | l_eof h1 h2 =>
    refine ⟨.word, .inl rfl, ?_⟩
    rw [kw (by decide), putNames_all (forall₂_after h2 fun _ _ h => after_ref h)]
    exact .l_eof h1 h2
  | @l_bad _ _ t _ _ _ h1 h2 h3 =>
    refine ⟨ρ.after t, .inr ⟨t, rfl⟩, ?_⟩
    rw [kw (by decide), putNames_words (forall₂_after h2 fun _ _ h => after_ref h), any]
    exact .l_bad h1 h2 h3
  | l_mixed h1 h2 h3 h4 =>
    obtain ⟨m, h, hm, -⟩ := stop_names (ρ := ρ) h4
    refine ⟨m, hm, ?_⟩
    rw [kw (by decide), putNames_words (forall₂_after h2 fun _ _ h => after_ref h)]
    exact .l_mixed h1 h2 h3 h
  | f_few h1 h2 h4 =>
    obtain ⟨m, h, hm, -⟩ := stop_names (ρ := ρ) h4
    refine ⟨m, hm, ?_⟩
    rw [kw (by decide), putNames_words (forall₂_after h2 fun _ _ h => after_ref h)]
    exact .f_few h1 h2 h
  | f_mixed h1 h2 h3 h4 =>
    obtain ⟨m, h, hm, -⟩ := stop_names (ρ := ρ) h4
    refine ⟨m, hm, ?_⟩
    rw [kw (by decide), putNames_words (forall₂_after h2 fun _ _ h => after_ref h)]
    exact .f_mixed h1 h2 h3 h
  | unknown h1 => exact ⟨.word, .inl rfl, .unknown h1⟩

theorem stmtPanic_names {toks rest : List Tok} (h : StmtPanic cfg lo hi toks rest) :
    ∃ rest', StmtPanic cfg lo hi (putNames ρ.after .word toks) rest' := by
  have kw : ∀ {t}, t ∉ kws → ∀ ts, putNames ρ.after .word (t :: ts) = t :: putNames ρ.after .word ts :=
    fun h ts => putNames_word (after_word h) ts
  have any : ∀ t ts, putNames ρ.after .word (t :: ts) = t :: putNames ρ.after (ρ.after t) ts := fun _ _ => rfl
  cases h with
  | p h1 h2 =>
    rw [kw (by decide), putNames_words (forall₂_after h1 fun _ _ h => after_num h), any]
    exact ⟨_, .p h1 h2⟩
  | l h1 h2 =>
    rw [kw (by decide), putNames_words (forall₂_after h1 fun _ _ h => after_ref h), any]
    exact ⟨_, .l h1 h2⟩
  | f h1 h2 =>
    rw [kw (by decide), putNames_words (forall₂_after h1 fun _ _ h => after_ref h), any]
    exact ⟨_, .f h1 h2⟩

theorem blank_names (toks : List Tok) : putNames ρ.after .word (nl :: toks) = nl :: putNames ρ.after .word toks :=
  putNames_word (after_word (by decide)) _

theorem body_names (hρ : ρ.Ok) {its toks rest} (h : Body cfg lo hi its toks rest) (ho : Orderly toks) :
    Body cfg lo hi (its.map ρ.item) (putNames ρ.after .word toks) (putNames ρ.after .word rest) := by
  induction h with
  | done h =>
    refine .done ?_
    rcases h with rfl | h
    · exact .inl rfl
    · exact .inr (by rw [putNames_head, h])
  | blank _ ih =>
    rw [blank_names]
    exact .blank (ih (orderly_suffix ho (List.suffix_cons ..)))
  | stmt hs _ ih =>
    refine .stmt (stmt_names hρ hs ho) ?_
    rw [counts_item]
    exact ih (orderly_suffix ho (stmt_suffix hs))

theorem bodyErr_names (hρ : ρ.Ok) {toks rest k e} (h : BodyErr cfg lo hi toks k e rest) (ho : Orderly toks) :
    ∃ m, (m = .word ∨ ∃ t, m = ρ.after t) ∧
      BodyErr cfg lo hi (putNames ρ.after .word toks) k e (putNames ρ.after m rest) := by
  induction h with
  | here h =>
    obtain ⟨m, hm, h'⟩ := stmtErr_names (ρ := ρ) h
    exact ⟨m, hm, .here h'⟩
  | blank _ ih =>
    obtain ⟨m, hm, h'⟩ := ih (orderly_suffix ho (List.suffix_cons ..))
    rw [blank_names]
    exact ⟨m, hm, .blank h'⟩
  | later hs _ ih =>
    obtain ⟨m, hm, h'⟩ := ih (orderly_suffix ho (stmt_suffix hs))
    refine ⟨m, hm, .later (stmt_names hρ hs ho) ?_⟩
    rw [counts_item]
    exact h'

theorem bodyPanic_names (hρ : ρ.Ok) {toks rest} (h : BodyPanic cfg lo hi toks rest) (ho : Orderly toks) :
    ∃ rest', BodyPanic cfg lo hi (putNames ρ.after .word toks) rest' := by
  induction h with
  | here h =>
    obtain ⟨r, h'⟩ := stmtPanic_names (ρ := ρ) h
    exact ⟨r, .here h'⟩
  | blank _ ih =>
    obtain ⟨r, h'⟩ := ih (orderly_suffix ho (List.suffix_cons ..))
    rw [blank_names]
    exact ⟨r, .blank h'⟩
  | later hs _ ih =>
    obtain ⟨r, h'⟩ := ih (orderly_suffix ho (stmt_suffix hs))
    refine ⟨r, .later (stmt_names hρ hs ho) ?_⟩
    rw [counts_item]
    exact h'

theorem header_names (hρ : ρ.Ok) {toks name mid} (h : Header toks name mid) :
    Header (putNames ρ.after .word toks) (ρ.object name) (putNames ρ.after .word mid) := by
  cases h with
  | implicit h => rw [hρ.noName]; exact .implicit h
  | named =>
    have : ∀ name rest, putNames ρ.after .word (b!"o" :: name :: nl :: rest) =
        b!"o" :: ρ.object name :: putNames ρ.after .word (nl :: rest) := fun _ _ => rfl
    rw [this, blank_names]
    exact .named

theorem headerErr_names {toks rest k e} (h : HeaderErr toks k e rest) :
    ∃ m, (m = .word ∨ ∃ t, m = ρ.after t) ∧
      HeaderErr (putNames ρ.after .word toks) k e (putNames ρ.after m rest) := by
  cases h with
  | no_name => exact ⟨.word, .inl rfl, .no_name⟩
  | no_line => exact ⟨.word, .inl rfl, .no_line⟩
  | junk h => exact ⟨_, .inr ⟨_, rfl⟩, .junk h⟩

theorem objects_names (hρ : ρ.Ok) {objs toks} (h : Objects cfg lo objs toks) (ho : Orderly toks) :
    Objects cfg lo (objs.map ρ.ast) (putNames ρ.after .word toks) := by
  induction h with
  | done => exact .done
  | obj hh hb hbare _ ih =>
    have h1 := orderly_suffix ho (header_suffix hh)
    refine .obj (header_names hρ hh) (body_names hρ hb h1) (by rwa [bare_items]) ?_
    rw [countsOf_items]
    exact ih (orderly_suffix h1 (body_suffix hb))

theorem objectsErr_names (hρ : ρ.Ok) {toks rest k e} (h : ObjectsErr cfg lo toks k e rest) (ho : Orderly toks) :
    ∃ m, (m = .word ∨ ∃ t, m = ρ.after t) ∧
      ObjectsErr cfg lo (putNames ρ.after .word toks) k e (putNames ρ.after m rest) := by
  induction h with
  | header h =>
    obtain ⟨m, hm, h'⟩ := headerErr_names (ρ := ρ) h
    exact ⟨m, hm, .header h'⟩
  | body hh hb =>
    obtain ⟨m, hm, h'⟩ := bodyErr_names hρ hb (orderly_suffix ho (header_suffix hh))
    exact ⟨m, hm, .body (header_names hρ hh) h'⟩
  | later hh hb hbare _ ih =>
    have h1 := orderly_suffix ho (header_suffix hh)
    obtain ⟨m, hm, h'⟩ := ih (orderly_suffix h1 (body_suffix hb))
    refine ⟨m, hm, .later (header_names hρ hh) (body_names hρ hb h1) (by rwa [bare_items]) ?_⟩
    rw [countsOf_items]
    exact h'

theorem objectsPanic_names (hρ : ρ.Ok) {toks x} (h : ObjectsPanic cfg lo toks x) (ho : Orderly toks) :
    ObjectsPanic cfg lo (putNames ρ.after .word toks) x := by
  induction h with
  | body hh hb =>
    obtain ⟨r, h'⟩ := bodyPanic_names hρ hb (orderly_suffix ho (header_suffix hh))
    exact .body (header_names hρ hh) h'
  | bare hh hb hbare =>
    exact .bare (header_names hρ hh) (body_names hρ hb (orderly_suffix ho (header_suffix hh))) (by rwa [bare_items])
  | later hh hb hbare _ ih =>
    have h1 := orderly_suffix ho (header_suffix hh)
    refine .later (header_names hρ hh) (body_names hρ hb h1) (by rwa [bare_items]) ?_
    rw [countsOf_items]
    exact ih (orderly_suffix h1 (body_suffix hb))

theorem libs_names (hρ : ρ.Ok) {toks libs rest} (h : Libs toks libs rest) :
    Libs (putNames ρ.after .word toks) (libs.map ρ.library) (putNames ρ.after .word rest) := by
  induction h with
  | done h1 h2 => exact .done (by rwa [putNames_head]) (by rwa [putNames_head])
  | blank _ ih => rw [blank_names]; exact .blank ih
  | line h1 h2 _ ih =>
    obtain ⟨mid', e, h'⟩ := putNames_line (after := ρ.after) (f := ρ.library) h1 h2
    have : putNames ρ.after .word (b!"mtllib" :: (_ ++ _)) = _ := congrArg (b!"mtllib" :: ·) e
    rw [this, List.map_append]
    exact .line (no_nl hρ.library h1) h' ih

/-! ### Meaning -/

section
variable {F : Type} [FloatSem F]

def Renaming.acc (ρ : Renaming) (a : Acc F) : Acc F :=
  { a with
    groups := a.groups.map fun g => ⟨ρ.group g.name⟩
    geometries := a.geometries.map fun g => { g with material_name := g.material_name.map ρ.material }
    material := a.material.map ρ.material }

omit [FloatSem F] in
theorem defaults_names (hρ : ρ.Ok) (a : Acc F) : (ρ.acc a).defaults = ρ.acc a.defaults := by
  simp only [Acc.defaults, Renaming.acc, List.map_eq_nil_iff]
  split <;> split <;> simp [hρ.default]

theorem step_names (hρ : ρ.Ok) (a : Acc F) (it : Item) : (ρ.acc a).step lo (ρ.item it) = ρ.acc (a.step lo it) := by
  cases it with
  | g names => simp [Acc.step, Renaming.item, Renaming.acc]
  | usemtl name =>
    have e : (ρ.acc a).ofMaterial = a.ofMaterial := rfl
    simp only [Acc.step, Renaming.item, e]
    by_cases h : a.ofMaterial = []
    · rw [if_pos h, if_pos h]; rfl
    · rw [if_neg h, if_neg h]; simp [Renaming.acc]
  | p is => simp only [Acc.step, Renaming.item, defaults_names hρ]; rfl
  | l is => simp only [Acc.step, Renaming.item, defaults_names hρ]; rfl
  | f is => simp only [Acc.step, Renaming.item, defaults_names hρ]; rfl
  | _ => rfl

theorem fold_names (hρ : ρ.Ok) (its : List Item) (a : Acc F) :
    (its.map ρ.item).foldl (Acc.step lo) (ρ.acc a) = ρ.acc (its.foldl (Acc.step lo) a) := by
  induction its generalizing a with
  | nil => rfl
  | cons it its ih => rw [List.map_cons, List.foldl_cons, List.foldl_cons, step_names hρ, ih]

theorem objMeaning_names (hρ : ρ.Ok) (o : ObjAst) : (objMeaning lo (ρ.ast o) : Object F) = ρ.obj (objMeaning lo o) := by
  have := fold_names (F := F) (lo := lo) hρ o.items {}
  have h0 : ρ.acc ({} : Acc F) = {} := rfl
  rw [h0] at this
  simp only [objMeaning, Renaming.ast, this]
  simp [Renaming.obj, Renaming.acc]

theorem objectsMeaning_names (hρ : ρ.Ok) (objs : List ObjAst) :
    (objectsMeaning lo (objs.map ρ.ast) : List (Object F)) = (objectsMeaning lo objs).map ρ.obj := by
  induction objs generalizing lo with
  | nil => rfl
  | cons o os ih =>
    rw [List.map_cons, objectsMeaning, objectsMeaning, List.map_cons, objMeaning_names hρ, ← ih]
    simp only [Renaming.ast, countsOf_items]

theorem meaning_names (hρ : ρ.Ok) (f : FileAst) : (meaning (ρ.file f) : ObjectSet F) = ρ.set (meaning f) := by
  simp only [meaning, Renaming.file, Renaming.set, objectsMeaning_names hρ]

/-- When libraries, objects, groups and materials of an OBJ file get new names, the result is the
same with the new names in it; an error or a panic stays exactly the same. -/
theorem renamed_obj {a b : Bytes} (ha : a.length < 2 ^ 63) (hb : b.length < 2 ^ 63) (hρ : ρ.Ok)
    (h : tokens b = ρ.toks (tokens a)) (ho : Orderly (tokens a)) :
    (Obj.parse cfg b : Out ErrorKind (ObjectSet F)) = onValue ρ.set (Obj.parse cfg a) := by
  have keep : ∀ t f, ρ.after t = .name f ∨ ρ.after t = .names f → KeepsLines f := by
    intro t f h
    unfold Renaming.after at h
    split_ifs at h <;> rcases h with h | h <;> cases h
    exacts [hρ.group, hρ.library, hρ.material, hρ.object]
  have hn : ∀ m, (m = .word ∨ ∃ t, m = ρ.after t) → ∀ ts, nls (putNames ρ.after m ts) = nls ts := by
    intro m hm ts
    refine nls_putNames keep m (fun f hf => ?_) ts
    rcases hm with rfl | ⟨t, rfl⟩
    · rcases hf with hf | hf <;> cases hf
    · exact keep t f hf
  have hf := file_total cfg (tokens a)
  rcases hf with ⟨file, hf⟩ | ⟨k, m, rest, hf⟩ | ⟨x, hf⟩
  · rw [Obj.parse_ok_of ha hf]
    obtain ⟨mid, hl, hs⟩ := hf
    have : FileOk cfg (tokens b) (ρ.file file) :=
      h ▸ ⟨_, libs_names hρ hl, objects_names hρ hs (orderly_suffix ho (libs_suffix hl))⟩
    rw [Obj.parse_ok_of hb this, meaning_names hρ]
    rfl
  · rw [Obj.parse_err_of ha hf]
    obtain ⟨libs, mid, hl, hs⟩ := hf
    obtain ⟨m', hm, h'⟩ := objectsErr_names hρ hs (orderly_suffix ho (libs_suffix hl))
    have : FileErr cfg (tokens b) k m (putNames ρ.after m' rest) := h ▸ ⟨_, _, libs_names hρ hl, h'⟩
    rw [Obj.parse_err_of hb this, h, Renaming.toks, hn _ (.inl rfl), hn _ hm]
    rfl
  · rw [Obj.parse_panic_of ha hf]
    obtain ⟨libs, mid, hl, hs⟩ := hf
    have : FilePanic cfg (tokens b) x :=
      h ▸ ⟨_, _, libs_names hρ hl, objectsPanic_names hρ hs (orderly_suffix ho (libs_suffix hl))⟩
    rw [Obj.parse_panic_of hb this]
    rfl

end

/-- A test for `Orderly`; `open'` says whether a line or face keyword came before on the line. -/
def orderly (open' : Bool) : List Tok → Bool
  | [] => true
  | t :: ts => !(open' && kws.contains t) && orderly (t != nl && (open' || t == b!"l" || t == b!"f")) ts

theorem orderly_true {mid post : List Tok} {kw' : Tok} (hk : kw' ∈ kws) (h : orderly true (mid ++ kw' :: post) = true) :
    nl ∈ mid := by
  induction mid with
  | nil => simp [orderly, hk] at h
  | cons t mid ih =>
    by_cases ht : t = nl
    · simp [ht]
    · have : orderly true (mid ++ kw' :: post) = true := by
        simp only [List.cons_append, orderly, Bool.and_eq_true] at h
        simpa [bne_iff_ne.mpr ht] using h.2
      exact List.mem_cons_of_mem _ (ih this)

theorem orderly_of {b : Bool} {ts : List Tok} (h : orderly b ts = true) : Orderly ts := by
  intro pre mid post kw kw' e h1 h2
  subst e
  induction pre generalizing b with
  | nil =>
    simp only [List.nil_append, orderly, Bool.and_eq_true] at h
    refine orderly_true (post := post) h2 ?_
    rcases h1 with rfl | rfl
    · have e : (b!"l" != nl && (b || b!"l" == b!"l" || b!"l" == b!"f")) = true := by cases b <;> decide
      rw [e] at h
      exact h.2
    · have e : (b!"f" != nl && (b || b!"f" == b!"l" || b!"f" == b!"f")) = true := by cases b <;> decide
      rw [e] at h
      exact h.2
  | cons t pre ih =>
    simp only [List.cons_append, orderly, Bool.and_eq_true] at h
    exact ih h.2

end ObjNames

section
open Verif.Obj Verif.Spec.Obj ObjNames

/-- **C80** When libraries, objects, groups and materials of an OBJ file get new names, the result is the
same with the new names in it; an error or a panic stays exactly the same. -/
theorem C80_obj {F : Type} [FloatSem F] {cfg : Cfg} {ρ : Renaming} {a b : Bytes} (ha : a.length < 2 ^ 63)
    (hb : b.length < 2 ^ 63) (hρ : ρ.Ok) (h : tokens b = ρ.toks (tokens a)) (ho : Orderly (tokens a)) :
    (Obj.parse cfg b : Out ErrorKind (ObjectSet F)) = onValue ρ.set (Obj.parse cfg a) :=
  renamed_obj ha hb hρ h ho

/-- Two groups get the same name, the made-up ones stay. -/
def newNames : Renaming where
  library := fun t => if t = b!"a.mtl" then b!"b.mtl" else t
  object := fun t => if t = b!"box" then b!"usemtl" else t
  group := fun t => if t = b!"x" ∨ t = b!"y" then b!"g" else t
  material := fun t => if t = b!"red" then b!"blue" else t

theorem newNames_ok : newNames.Ok := by
  have key : ∀ (p : Bytes → Prop) [DecidablePred p] (y : Bytes), ¬ p nl → y ≠ nl →
      KeepsLines fun t => if p t then y else t := by
    intro p _ y h1 h2 t
    simp only
    split
    · next h => exact ⟨fun e => absurd e h2, fun e => absurd (e ▸ h) h1⟩
    · rfl
  exact ⟨key (· = b!"a.mtl") _ (by decide) (by decide), key (· = b!"box") _ (by decide) (by decide),
    key (fun t => t = b!"x" ∨ t = b!"y") _ (by decide) (by decide), key (· = b!"red") _ (by decide) (by decide), rfl, rfl⟩

example : (Obj.parse debug b!"mtllib b.mtl\no usemtl\nv 0 0 0\np 1 g g g\nusemtl blue\nf 1 1 1\n" :
      Out ErrorKind (ObjectSet Bytes)) =
    onValue newNames.set (Obj.parse debug b!"mtllib a.mtl\no box\nv 0 0 0\np 1 g x y\nusemtl red\nf 1 1 1\n") :=
  C80_obj (by decide) (by decide) newNames_ok (by decide +kernel) (orderly_of (b := false) (by decide +kernel))

/-- The restriction is needed: here `usemtl` belongs to the face statement, so `red` is not a name. -/
example : (Obj.parse debug b!"v 0 0 0\nf 1 1 1 usemtl red\n" : Out ErrorKind (ObjectSet Bytes)) =
    .err ⟨2, .InvalidObjectStatement, b!"Unsupported or invalid object statement `red`."⟩ := by decide +kernel

end



/-! ## MTL files -/

namespace MtlNames

open Verif.Mtl Verif.Spec.Mtl

/-- New names for materials and texture maps. -/
structure Renaming where
  material : Bytes → Bytes
  map : Bytes → Bytes

structure Renaming.Ok (ρ : Renaming) : Prop where
  material : KeepsLines ρ.material
  map : KeepsLines ρ.map

/-- What follows a word. -/
def Renaming.after (ρ : Renaming) (t : Tok) : Mode :=
  if t = b!"newmtl" then .name ρ.material
  else if t ∈ [b!"map_Ka", b!"map_Kd", b!"map_Ks", b!"map_Ke", b!"map_Ns", b!"map_Bump", b!"bump", b!"disp",
      b!"map_d", b!"decal"] then .name ρ.map
  else .word

/-- The words of a file with new names. -/
def Renaming.toks (ρ : Renaming) (ts : List Tok) : List Tok := putNames ρ.after .word ts

/-- A material set with new names. -/
def Renaming.mat {F : Type} (ρ : Renaming) (m : Material F) : Material F :=
  { m with
    name := ρ.material m.name
    map_ambient := m.map_ambient.map ρ.map
    map_diffuse := m.map_diffuse.map ρ.map
    map_specular := m.map_specular.map ρ.map
    map_emissive := m.map_emissive.map ρ.map
    map_specular_exponent := m.map_specular_exponent.map ρ.map
    map_bump := m.map_bump.map ρ.map
    map_displacement := m.map_displacement.map ρ.map
    map_dissolve := m.map_dissolve.map ρ.map
    map_decal := m.map_decal.map ρ.map }

def Renaming.set {F : Type} (ρ : Renaming) (s : MaterialSet F) : MaterialSet F := ⟨s.materials.map ρ.mat⟩

def Renaming.item (ρ : Renaming) : Item → Item
  | .map s name => .map s (ρ.map name)
  | it => it

def Renaming.ast (ρ : Renaming) (m : MatAst) : MatAst := ⟨ρ.material m.name, m.items.map ρ.item⟩

variable {ρ : Renaming}

def kws : List Tok :=
  [b!"newmtl", b!"map_Ka", b!"map_Kd", b!"map_Ks", b!"map_Ke", b!"map_Ns", b!"map_Bump", b!"bump", b!"disp",
    b!"map_d", b!"decal"]

theorem after_word {t : Tok} (h : t ∉ kws) : ρ.after t = .word := by
  rw [kws, List.mem_cons, not_or] at h
  rw [Renaming.after, if_neg h.1, if_neg h.2]

theorem after_map {s : MapSlot} {t : Tok} (h : t ∈ s.tags) : ρ.after t = .name ρ.map := by
  have : ∀ s : MapSlot, ∀ t ∈ s.tags, t ≠ b!"newmtl" ∧ t ∈ kws.tail := by
    intro s; cases s <;> decide
  rw [Renaming.after, if_neg (this s t h).1]
  exact if_pos (this s t h).2

theorem not_kw {p : Tok → Prop} {t : Tok} (h : p t) (hp : ∀ t ∈ kws, ¬ p t) : t ∉ kws := fun hk => hp t hk h

theorem after_float {t : Tok} (h : isFloat t = true) : ρ.after t = .word :=
  after_word (not_kw (p := fun t => isFloat t = true) h (by decide))

theorem after_int {t : Tok} {n : Nat} (h : parseUsize t = some n) : ρ.after t = .word :=
  after_word (not_kw (p := fun t => parseUsize t ≠ none) (by simp [h]) (by decide))

theorem after_color (s : ColorSlot) : ρ.after s.tag = .word := after_word (by cases s <;> decide)

theorem after_num (s : NumSlot) : ρ.after s.tag = .word := after_word (by cases s <;> decide)

theorem stmt_names {it : Item} {toks rest : List Tok} (h : Stmt it toks rest) :
    Stmt (ρ.item it) (putNames ρ.after .word toks) (putNames ρ.after .word rest) := by
  cases h with
  | color h1 h2 h3 =>
    rw [putNames_word (after_color _), putNames_word (after_float h1), putNames_word (after_float h2),
      putNames_word (after_float h3)]
    exact .color h1 h2 h3
  | num h1 =>
    rw [putNames_word (after_num _), putNames_word (after_float h1)]
    exact .num h1
  | illum h1 =>
    rw [putNames_word (after_word (by decide)), putNames_word (after_int h1)]
    exact .illum h1
  | map h1 =>
    rw [putNames, after_map h1, putNames]
    exact .map h1

theorem stmtErr_names {toks rest : List Tok} {k e} (h : StmtErr toks k e rest) :
    ∃ m, (m = .word ∨ ∃ t, m = ρ.after t) ∧ StmtErr (putNames ρ.after .word toks) k e (putNames ρ.after m rest) := by
  have any : ∀ t ts, putNames ρ.after .word (t :: ts) = t :: putNames ρ.after (ρ.after t) ts := fun _ _ => rfl
  cases h with
  | color_eof h1 h2 =>
    refine ⟨.word, .inl rfl, ?_⟩
    rw [putNames_word (after_color _), putNames_all fun t ht => after_float (h2 t ht)]
    exact .color_eof h1 h2
  | @color_bad _ _ t _ h1 h2 h3 =>
    refine ⟨ρ.after t, .inr ⟨t, rfl⟩, ?_⟩
    rw [putNames_word (after_color _), putNames_words fun t ht => after_float (h2 t ht), any]
    exact .color_bad h1 h2 h3
  | num_eof =>
    refine ⟨.word, .inl rfl, ?_⟩
    rw [putNames_word (after_num _)]
    exact .num_eof
  | @num_bad _ t _ h1 =>
    refine ⟨ρ.after t, .inr ⟨t, rfl⟩, ?_⟩
    rw [putNames_word (after_num _), any]
    exact .num_bad h1
  | illum_eof => exact ⟨.word, .inl rfl, .illum_eof⟩
  | @illum_bad t _ h1 =>
    refine ⟨ρ.after t, .inr ⟨t, rfl⟩, ?_⟩
    rw [putNames_word (after_word (by decide)), any]
    exact .illum_bad h1
  | @illum_unknown t _ _ h1 h2 =>
    refine ⟨ρ.after t, .inr ⟨t, rfl⟩, ?_⟩
    rw [putNames_word (after_word (by decide)), any]
    exact .illum_unknown h1 h2
  | map_eof h1 =>
    refine ⟨.word, .inl rfl, ?_⟩
    rw [any, after_map h1]
    exact .map_eof h1
  | unknown h1 h2 h3 => exact ⟨.word, .inl rfl, .unknown h1 h2 h3⟩

theorem blank_names (toks : List Tok) : putNames ρ.after .word (nl :: toks) = nl :: putNames ρ.after .word toks :=
  putNames_word (after_word (by decide)) _

theorem body_names {its toks rest} (h : Body its toks rest) :
    Body (its.map ρ.item) (putNames ρ.after .word toks) (putNames ρ.after .word rest) := by
  induction h with
  | done h =>
    refine .done ?_
    rcases h with rfl | h
    · exact .inl rfl
    · exact .inr (by rw [putNames_head, h])
  | blank _ ih => rw [blank_names]; exact .blank ih
  | stmt hs _ ih => exact .stmt (stmt_names hs) ih

theorem bodyErr_names {toks rest k e} (h : BodyErr toks k e rest) :
    ∃ m, (m = .word ∨ ∃ t, m = ρ.after t) ∧ BodyErr (putNames ρ.after .word toks) k e (putNames ρ.after m rest) := by
  induction h with
  | here h =>
    obtain ⟨m, hm, h'⟩ := stmtErr_names (ρ := ρ) h
    exact ⟨m, hm, .here h'⟩
  | blank _ ih =>
    obtain ⟨m, hm, h'⟩ := ih
    rw [blank_names]
    exact ⟨m, hm, .blank h'⟩
  | later hs _ ih =>
    obtain ⟨m, hm, h'⟩ := ih
    exact ⟨m, hm, .later (stmt_names hs) h'⟩

theorem newmtl_names (name : Tok) (toks : List Tok) : putNames ρ.after .word (b!"newmtl" :: name :: toks) =
    b!"newmtl" :: ρ.material name :: putNames ρ.after .word toks := rfl

theorem mats_names {mats toks} (h : Mats mats toks) : Mats (mats.map ρ.ast) (putNames ρ.after .word toks) := by
  induction h with
  | done => exact .done
  | mat hb _ ih => rw [newmtl_names]; exact .mat (body_names hb) ih

theorem matsErr_names {toks rest k e} (h : MatsErr toks k e rest) :
    ∃ m, (m = .word ∨ ∃ t, m = ρ.after t) ∧ MatsErr (putNames ρ.after .word toks) k e (putNames ρ.after m rest) := by
  induction h with
  | no_name => exact ⟨.word, .inl rfl, .no_name⟩
  | body hb =>
    obtain ⟨m, hm, h'⟩ := bodyErr_names (ρ := ρ) hb
    exact ⟨m, hm, .body h'⟩
  | later hb _ ih =>
    obtain ⟨m, hm, h'⟩ := ih
    exact ⟨m, hm, .later (body_names hb) h'⟩

theorem file_names {mats toks} (h : FileOk toks mats) : FileOk (putNames ρ.after .word toks) (mats.map ρ.ast) := by
  induction h with
  | blank _ ih => rw [blank_names]; exact .blank ih
  | mats h => exact .mats (mats_names h)

theorem fileErr_names {toks rest k e} (h : FileErr toks k e rest) :
    ∃ m, (m = .word ∨ ∃ t, m = ρ.after t) ∧ FileErr (putNames ρ.after .word toks) k e (putNames ρ.after m rest) := by
  induction h with
  | blank _ ih =>
    obtain ⟨m, hm, h'⟩ := ih
    rw [blank_names]
    exact ⟨m, hm, .blank h'⟩
  | trailing h1 h2 => exact ⟨.word, .inl rfl, .trailing h1 h2⟩
  | mats h =>
    obtain ⟨m, hm, h'⟩ := matsErr_names (ρ := ρ) h
    exact ⟨m, hm, .mats h'⟩

section
variable {F : Type} [FloatSem F]

theorem last_map {α β : Type} {f : α → Option β} {g : α → α} {h : β → β} (e : ∀ x, f (g x) = (f x).map h) (l : List α) :
    last f (l.map g) = (last f l).map h := by
  have : (f ∘ g) = fun x => (f x).map h := funext e
  rw [last, last, List.filterMap_map, this, ← List.map_filterMap, List.getLast?_map]

theorem last_same {α β : Type} {f : α → Option β} {g : α → α} (e : ∀ x, f (g x) = f x) (l : List α) :
    last f (l.map g) = last f l := by
  rw [last_map (h := id) (fun x => by rw [e, Option.map_id]; rfl), Option.map_id]; rfl

theorem meaning_names (mats : List MatAst) : (meaning (mats.map ρ.ast) : MaterialSet F) = ρ.set (meaning mats) := by
  have hc : ∀ s it, Item.color? (F := F) s (ρ.item it) = Item.color? s it := by intro s it; cases it <;> rfl
  have hn : ∀ s it, Item.num? (F := F) s (ρ.item it) = Item.num? s it := by intro s it; cases it <;> rfl
  have hi : ∀ it, Item.illum? (ρ.item it) = Item.illum? it := by intro it; cases it <;> rfl
  have hm : ∀ s it, Item.map? s (ρ.item it) = (Item.map? s it).map ρ.map := by
    intro s it
    cases it <;> simp only [Renaming.item, Item.map?, Option.map_none]
    split <;> rfl
  simp only [meaning, Renaming.set, List.map_map]
  congr 1
  refine List.map_congr_left fun m _ => ?_
  simp only [Function.comp, Renaming.ast, matMeaning, Renaming.mat, last_same (hc _), last_same (hn _), last_same hi,
    last_map (hm _)]

/-- When materials and texture maps of an MTL file get new names, the result is the same with the
new names in it; an error stays exactly the same. -/
theorem renamed_mtl {a b : Bytes} (hρ : ρ.Ok) (h : tokens b = ρ.toks (tokens a)) :
    (Mtl.parse b : Out ErrorKind (MaterialSet F)) = onValue ρ.set (Mtl.parse a) := by
  have keep : ∀ t f, ρ.after t = .name f ∨ ρ.after t = .names f → KeepsLines f := by
    intro t f h
    unfold Renaming.after at h
    split_ifs at h <;> rcases h with h | h <;> cases h
    exacts [hρ.material, hρ.map]
  have hn : ∀ m, (m = .word ∨ ∃ t, m = ρ.after t) → ∀ ts, nls (putNames ρ.after m ts) = nls ts := by
    intro m hm ts
    refine nls_putNames keep m (fun f hf => ?_) ts
    rcases hm with rfl | ⟨t, rfl⟩
    · rcases hf with hf | hf <;> cases hf
    · exact keep t f hf
  rcases file_total (tokens a) with ⟨mats, hf⟩ | ⟨k, m, rest, hf⟩
  · have : FileOk (tokens b) (mats.map ρ.ast) := h ▸ file_names hf
    rw [Mtl.parse_ok_of hf, Mtl.parse_ok_of this, meaning_names]
    rfl
  · obtain ⟨m', hm, h'⟩ := fileErr_names (ρ := ρ) hf
    have : FileErr (tokens b) k m (putNames ρ.after m' rest) := h ▸ h'
    rw [Mtl.parse_err_of hf, Mtl.parse_err_of this, h, Renaming.toks, hn _ (.inl rfl), hn _ hm]
    rfl

end

end MtlNames

section
open Verif.Mtl Verif.Spec.Mtl MtlNames

/-- **C80** When materials and texture maps of an MTL file get new names, the result is the same with the
new names in it; an error stays exactly the same. -/
theorem C80_mtl {F : Type} [FloatSem F] {ρ : Renaming} {a b : Bytes} (hρ : ρ.Ok) (h : tokens b = ρ.toks (tokens a)) :
    (Mtl.parse b : Out ErrorKind (MaterialSet F)) = onValue ρ.set (Mtl.parse a) :=
  renamed_mtl hρ h

example : (Mtl.parse b!"newmtl Kd\nmap_Kd newmtl\nKd 1 1 1\n" : Out ErrorKind (MaterialSet Bytes)) =
    onValue (Renaming.set ⟨fun t => if t = b!"m" then b!"Kd" else t, fun t => if t = b!"f.png" then b!"newmtl" else t⟩)
      (Mtl.parse b!"newmtl m\nmap_Kd f.png\nKd 1 1 1\n") := by
  refine C80_mtl ⟨?_, ?_⟩ (by decide +kernel)
  all_goals
    intro t
    simp only
    split
    · next h => subst h; decide
    · rfl

end


end Verif.Props
