/-
C17: metadata lookup. C46: its limits.
-/
import Verif.Model.Metadata
import Verif.Spec.Metadata
import Verif.Props.Pvl

namespace Verif.Meta
open Verif.Py Verif.Pvl Verif.Pvl.Spec Verif.Meta.Spec

/-! ### the first value -/

section
variable {α : Type}

theorem keys_append (a b : MDict α) : keys (a ++ b) = keys a ++ keys b := by
  induction a with
  | nil => simp [keys]
  | cons x xs ih =>
    obtain ⟨k, t⟩ := x
    simp [keys, ih]

theorem mem_keys (key : Str) (t : MDict α) :
    key ∈ keys t ↔ key ∈ t.map Prod.fst ∨ ∃ name kids, (name, Tree.node kids) ∈ t ∧ key ∈ keys kids := by
  induction t with
  | nil => simp [keys]
  | cons x xs ih =>
    obtain ⟨k, v⟩ := x
    simp only [keys, List.mem_append, ih, List.map_cons, List.mem_cons]
    cases v with
    | leaf a =>
      simp only [keysT, List.mem_singleton, Prod.mk.injEq, reduceCtorEq, and_false, false_or]
      constructor
      · rintro (h | h | h)
        · exact .inl (.inl h)
        · exact .inl (.inr h)
        · exact .inr h
      · rintro ((h | h) | h)
        · exact .inl h
        · exact .inr (.inl h)
        · exact .inr (.inr h)
    | node kids =>
      simp only [keysT, List.mem_append, List.mem_singleton, Prod.mk.injEq, Tree.node.injEq]
      constructor
      · rintro ((h | h) | h | ⟨n, ks, h1, h2⟩)
        · exact .inr ⟨k, kids, .inl ⟨rfl, rfl⟩, h⟩
        · exact .inl (.inl h)
        · exact .inl (.inr h)
        · exact .inr ⟨n, ks, .inr h1, h2⟩
      · rintro ((h | h) | ⟨n, ks, ⟨rfl, rfl⟩ | h1, h2⟩)
        · exact .inl (.inr h)
        · exact .inr (.inl h)
        · exact .inl (.inl h2)
        · exact .inr (.inr ⟨n, ks, h1, h2⟩)

theorem nested_append (key : Str) (a b : MDict α) :
    digValuesNested key (a ++ b) = digValuesNested key a ++ digValuesNested key b := by
  induction a with
  | nil => simp [digValuesNested]
  | cons x xs ih =>
    obtain ⟨k, t⟩ := x
    simp [digValuesNested, ih]

theorem own_nil (key : Str) (t : MDict α) (h : key ∉ t.map Prod.fst) :
    (t.filter (fun kv => kv.1 == key)).map Prod.snd = [] := by
  rw [List.map_eq_nil_iff, List.filter_eq_nil_iff]
  intro kv hkv hk
  have : kv.1 = key := by simpa using hk
  exact h (List.mem_map.2 ⟨kv, hkv, this⟩)

mutual
theorem digValuesT_absent (key : Str) : (tr : Tree α) → (∀ kids, tr = .node kids → key ∉ keys kids) →
    digValuesT key tr = []
  | .leaf _, _ => rfl
  | .node kids, h => by
    have hk := h kids rfl
    have h1 : key ∉ kids.map Prod.fst := fun hm => hk ((mem_keys key kids).2 (.inl hm))
    simp only [digValuesT, own_nil key kids h1, List.nil_append]
    exact digValuesNested_absent key kids hk
theorem digValuesNested_absent (key : Str) : (t : MDict α) → key ∉ keys t → digValuesNested key t = []
  | [], _ => rfl
  | (k, tr) :: rest, h => by
    simp only [digValuesNested]
    have h2 : key ∉ keys rest := fun hm => h (by simp only [keys, List.mem_append]; exact .inr hm)
    rw [digValuesNested_absent key rest h2, digValuesT_absent key tr]
    · rfl
    · intro kids hk hm
      apply h
      subst hk
      simp only [keys, keysT, List.mem_append]
      exact .inl (.inl hm)
end

theorem digValue_absent (key : Str) (t : MDict α) (h : key ∉ keys t) : digValue key t = none := by
  unfold digValue digValues
  rw [own_nil key t (fun hm => h ((mem_keys key t).2 (.inl hm))), digValuesNested_absent key t h]
  rfl

theorem digValue_of_first (key : Str) (t : MDict α) (v : Tree α) (h : First key t v) : digValue key t = some v := by
  induction h with
  | here h =>
    unfold digValue digValues
    rw [List.filter_append, List.map_append, own_nil key _ h]
    simp
  | @inside pre post kids name v h1 h2 _ ih =>
    unfold digValue digValues
    rw [own_nil key _ h1, List.nil_append, nested_append, digValuesNested_absent key pre h2, List.nil_append]
    simp only [digValuesNested, digValuesT]
    unfold digValue digValues at ih
    rw [List.head?_append, ih]
    rfl

theorem exists_first (key : Str) : ∀ (n : Nat) (t : MDict α), sizeOf t < n → key ∈ keys t → ∃ v, First key t v := by
  intro n
  induction n with
  | zero => intro t h; omega
  | succ n ih =>
    intro t hsz hk
    by_cases hown : key ∈ t.map Prod.fst
    · obtain ⟨⟨k, v⟩, hkv, hke⟩ := List.mem_map.1 hown
      simp only at hke
      subst hke
      have : ∀ l : MDict α, k ∈ l.map Prod.fst → ∃ pre v post, l = pre ++ (k, v) :: post ∧ k ∉ pre.map Prod.fst := by
        intro l
        induction l with
        | nil => intro h; cases h
        | cons x xs ihl =>
          intro h
          obtain ⟨k', v'⟩ := x
          by_cases he : k' = k
          · subst he; exact ⟨[], v', xs, rfl, by simp⟩
          · simp only [List.map_cons, List.mem_cons] at h
            rcases h with h | h
            · exact absurd h.symm he
            · obtain ⟨pre, v, post, rfl, hn⟩ := ihl h
              refine ⟨(k', v') :: pre, v, post, rfl, ?_⟩
              simp only [List.map_cons, List.mem_cons, not_or]
              exact ⟨fun h => he h.symm, hn⟩
      obtain ⟨pre, v, post, rfl, hn⟩ := this t hown
      exact ⟨v, .here hn⟩
    · have : ∀ l : MDict α, key ∉ l.map Prod.fst → key ∈ keys l →
          ∃ pre name kids post, l = pre ++ (name, Tree.node kids) :: post ∧ key ∉ keys pre ∧ key ∈ keys kids := by
        intro l
        induction l with
        | nil => intro _ h; cases h
        | cons x xs ihl =>
          intro hno h
          obtain ⟨k', v'⟩ := x
          simp only [List.map_cons, List.mem_cons, not_or] at hno
          by_cases hx : ∃ kids, v' = .node kids ∧ key ∈ keys kids
          · obtain ⟨kids, rfl, hk⟩ := hx
            exact ⟨[], k', kids, xs, rfl, by simp [keys], hk⟩
          · have hnot : key ∉ keysT k' v' := by
              intro hm
              cases v' with
              | leaf a => simp only [keysT, List.mem_singleton] at hm; exact hno.1 hm
              | node kids =>
                simp only [keysT, List.mem_append, List.mem_singleton] at hm
                rcases hm with hm | hm
                · exact hx ⟨kids, rfl, hm⟩
                · exact hno.1 hm
            simp only [keys, List.mem_append] at h
            rcases h with h | h
            · exact absurd h hnot
            · obtain ⟨pre, name, kids, post, rfl, h1, h2⟩ := ihl hno.2 h
              refine ⟨(k', v') :: pre, name, kids, post, rfl, ?_, h2⟩
              simp only [keys, List.mem_append, not_or]
              exact ⟨hnot, h1⟩
      obtain ⟨pre, name, kids, post, rfl, h1, h2⟩ := this t hown hk
      have hlt : sizeOf kids < sizeOf (pre ++ (name, Tree.node kids) :: post) := by
        have hm : (name, Tree.node kids) ∈ pre ++ (name, Tree.node kids) :: post := by simp
        have := List.sizeOf_lt_of_mem hm
        simp only [Prod.mk.sizeOf_spec, Tree.node.sizeOf_spec] at this
        omega
      obtain ⟨v, hv⟩ := ih kids (by omega) h2
      exact ⟨v, .inside hown h1 hv⟩

/-- the lookup is exactly "first value" -/
theorem digValue_iff (key : Str) (t : MDict α) (v : Tree α) : digValue key t = some v ↔ First key t v := by
  constructor
  · intro h
    by_cases hk : key ∈ keys t
    · obtain ⟨w, hw⟩ := exists_first key _ t (Nat.lt_succ_self _) hk
      have := digValue_of_first key t w hw
      rw [this] at h
      cases h
      exact hw
    · rw [digValue_absent key t hk] at h; cases h
  · exact digValue_of_first key t v

/-- **C17 (well defined).** A parameter that occurs anywhere in a label has exactly one first value; one that
does not has none. -/
theorem C17_first_exists_unique (key : Str) (t : MDict α) :
    (key ∈ keys t → ∃ v, First key t v ∧ ∀ w, First key t w → w = v) ∧ (key ∉ keys t → ∀ v, ¬ First key t v) := by
  constructor
  · intro h
    obtain ⟨v, hv⟩ := exists_first key _ t (Nat.lt_succ_self _) h
    refine ⟨v, hv, ?_⟩
    intro w hw
    have h1 := digValue_of_first key t v hv
    have h2 := digValue_of_first key t w hw
    rw [h1] at h2
    exact (Option.some.inj h2).symm
  · intro h v hv
    have := digValue_of_first key t v hv
    rw [digValue_absent key t h] at this
    cases this
end

/-! ### histories -/

set_option linter.unusedSectionVars false
variable {α D K : Type} [DecidableEq K]

/-- memo tables agree with the mapping -/
def Coherent (e : Env α D K) (s : State α D K) : Prop :=
  (∀ p ∈ s.memo, ∃ d, e.key d = p.1.2 ∧ p.2 = interior e s.dict p.1.1 d) ∧
  (∀ p ∈ s.blocks, p.2 = blockInterior s.dict p.1)

theorem recall_mem {κ ν : Type} [DecidableEq κ] {k : κ} {l : List (κ × ν)} {v : ν} (h : recall k l = some v) :
    (k, v) ∈ l := by
  induction l with
  | nil => cases h
  | cons x xs ih =>
    obtain ⟨k', v'⟩ := x
    simp only [recall] at h
    split at h
    · rename_i hk
      cases h; subst hk; simp
    · exact List.mem_cons_of_mem _ (ih h)

/-- does an operation change the mapping -/
def Op.isEdit : Op α D → Bool
  | .edit _ => true
  | _ => false

theorem metaget_frame (e : Env α D K) (s : State α D K) (t : Str) (d : D) (w : Bool) :
    (metaget e s t d w).1.dict = s.dict ∧ (metaget e s t d w).1.params = s.params ∧
    (metaget e s t d w).1.blocks = s.blocks := by
  unfold metaget
  split
  · exact ⟨rfl, rfl, rfl⟩
  · simp only
    split
    · exact ⟨rfl, rfl, rfl⟩
    · split <;> exact ⟨rfl, rfl, rfl⟩

theorem metablock_frame (s : State α D K) (t : Str) (w : Bool) :
    (metablock s t w).1.dict = s.dict ∧ (metablock s t w).1.params = s.params ∧
    (metablock s t w).1.memo = s.memo := by
  unfold metablock
  split
  · exact ⟨rfl, rfl, rfl⟩
  · simp only
    split <;> exact ⟨rfl, rfl, rfl⟩

theorem coherent_step (e : Env α D K) (s : State α D K) (o : Op α D) (h : Coherent e s) (ho : o.isEdit = false) :
    Coherent e (step e s o) ∧ (step e s o).dict = s.dict ∧ (step e s o).params = s.params := by
  cases o with
  | get t d w =>
    obtain ⟨f1, f2, f3⟩ := metaget_frame e s t d w
    refine ⟨?_, f1, f2⟩
    simp only [step]
    refine ⟨?_, by rw [f3, f1]; exact h.2⟩
    rw [f1]
    unfold metaget
    split
    · exact h.1
    · simp only
      split
      · exact h.1
      · split
        · exact h.1
        · intro p hp
          rcases List.mem_cons.1 hp with rfl | hp
          · exact ⟨d, rfl, rfl⟩
          · exact h.1 p hp
  | block t w =>
    obtain ⟨f1, f2, f3⟩ := metablock_frame s t w
    refine ⟨?_, f1, f2⟩
    simp only [step]
    refine ⟨by rw [f3, f1]; exact h.1, ?_⟩
    rw [f1]
    unfold metablock
    split
    · exact h.2
    · simp only
      split
      · exact h.2
      · intro p hp
        rcases List.mem_cons.1 hp with rfl | hp
        · rfl
        · exact h.2 p hp
  | edit _ => cases ho
  | refresh => exact ⟨⟨fun p hp => (by cases hp), fun p hp => (by cases hp)⟩, rfl, rfl⟩

theorem coherent_run (e : Env α D K) (s : State α D K) (ops : List (Op α D)) (h : Coherent e s)
    (ho : ∀ o ∈ ops, o.isEdit = false) :
    Coherent e (run e s ops) ∧ (run e s ops).dict = s.dict ∧ (run e s ops).params = s.params := by
  induction ops generalizing s with
  | nil => exact ⟨h, rfl, rfl⟩
  | cons o os ih =>
    obtain ⟨h1, h2, h3⟩ := coherent_step e s o h (ho o (by simp))
    obtain ⟨g1, g2, g3⟩ := ih (step e s o) h1 (fun o' ho' => ho o' (List.mem_cons_of_mem _ ho'))
    exact ⟨g1, g2.trans h2, g3.trans h3⟩

/-- a new `Metadata` object -/
def new (dict : MDict α) (params : List Str) : State α D K := ⟨dict, params, [], []⟩

theorem coherent_new (e : Env α D K) (dict : MDict α) (params : List Str) : Coherent e (new dict params) :=
  ⟨fun p hp => (by cases hp), fun p hp => (by cases hp)⟩

/-- is a value Python's None -/
def noneValue (e : Env α D K) : Tree α → Bool
  | .leaf a => e.isNone a
  | .node _ => false

theorem metaget_answer (e : Env α D K) (s : State α D K) (hs : Coherent e s) (t : Str) (d : D) (w : Bool)
    (hp : t ∈ s.params) (hh : e.hashable d = true) :
    ∃ d', e.key d' = e.key d ∧ (metaget e s t d w).2.1 = .ok (interior e s.dict t d') := by
  have hc : ¬ s.params.count t = 0 := by
    have := List.count_pos_iff.2 hp; omega
  unfold metaget
  rw [if_neg hc]
  simp only [hh, Bool.true_eq_false, if_false]
  cases hr : recall (t, e.key d) s.memo with
  | none => exact ⟨d, rfl, rfl⟩
  | some v =>
    obtain ⟨d', h1, h2⟩ := hs.1 _ (recall_mem hr)
    exact ⟨d', h1, congrArg Except.ok h2⟩

/-- **C17.** After any history of lookups, `metaget` gives: for a parameter that the label does not have, the
default; for a parameter whose first value is not None, that value; for one whose first value is None (or
that was counted although it is not in the mapping), the default, up to Python equality. The defaults are
assumed hashable (see C46). -/
theorem C17_metaget (e : Env α D K) (dict : MDict α) (params : List Str) (ops : List (Op α D))
    (ho : ∀ o ∈ ops, o.isEdit = false) (t : Str) (d : D) (w : Bool) :
    (t ∉ params → (metaget e (run e (new dict params) ops) t d w).2.1 = .ok (.inr d)) ∧
    (t ∈ params → e.hashable d = true → ∀ v, First t dict v → noneValue e v = false →
      (metaget e (run e (new dict params) ops) t d w).2.1 = .ok (.inl v)) ∧
    (t ∈ params → e.hashable d = true → (∀ v, First t dict v → noneValue e v = true) →
      ∃ d', e.key d' = e.key d ∧ (metaget e (run e (new dict params) ops) t d w).2.1 = .ok (.inr d')) := by
  obtain ⟨h1, h2, h3⟩ := coherent_run e (new dict params) ops (coherent_new e dict params) ho
  have h2' : (run e (new dict params) ops).dict = dict := h2
  have h3' : (run e (new dict params) ops).params = params := h3
  generalize run e (new dict params) ops = s at *
  refine ⟨?_, ?_, ?_⟩
  · intro hn
    unfold metaget
    rw [h3', if_pos (List.count_eq_zero.2 hn)]
  · intro hp hh v hv hnn
    obtain ⟨d', _, hd⟩ := metaget_answer e s h1 t d w (by rw [h3']; exact hp) hh
    rw [hd, h2']
    unfold interior
    rw [digValue_of_first t dict v hv]
    cases v with
    | leaf a => simp only [noneValue] at hnn; simp [hnn]
    | node kids => rfl
  · intro hp hh hall
    obtain ⟨d', hk, hd⟩ := metaget_answer e s h1 t d w (by rw [h3']; exact hp) hh
    refine ⟨d', hk, ?_⟩
    rw [hd, h2']
    unfold interior
    cases hv : digValue t dict with
    | none => rfl
    | some v =>
      have := hall v ((digValue_iff t dict v).1 hv)
      cases v with
      | leaf a => simp only [noneValue] at this; simp [this]
      | node kids => cases this

/-- **C17 (warning).** Whatever happened before, a lookup warns exactly when warnings are asked for and the
parameter was counted more than once. -/
theorem C17_warns_iff (e : Env α D K) (s : State α D K) (t : Str) (d : D) (w : Bool) :
    ((metaget e s t d w).2.2 = true ↔ w = true ∧ 1 < s.params.count t) ∧
    ((metablock s t w).2.2 = true ↔ w = true ∧ 1 < s.params.count t) := by
  constructor
  · unfold metaget
    split
    · rename_i h; simp [h]
    · simp only
      split
      · simp [and_comm]
      · split <;> simp [and_comm]
  · unfold metablock
    split
    · rename_i h; simp [h]
    · simp only
      split <;> simp [and_comm]

/-- the number of times a parameter is counted is the number of times it occurs in a parsed label -/
theorem C17_count_is_occurrences (ss : List Stmt) (h : (parseStatements ss).2.2 = false) (t : Str) :
    (parseStatements ss).2.1.count t = (keys (parseStatements ss).1).count t :=
  (C01_params_exact ss h).count_eq t

/-- **C17 (blocks).** After any history of lookups, `metablock` gives nothing for a name the label does not
have, the first value of the name if that is a block, and otherwise the whole label. -/
theorem C17_metablock (e : Env α D K) (dict : MDict α) (params : List Str) (ops : List (Op α D))
    (ho : ∀ o ∈ ops, o.isEdit = false) (t : Str) (w : Bool) :
    (t ∉ params → (metablock (run e (new dict params) ops) t w).2.1 = none) ∧
    (t ∈ params → ∀ kids, First t dict (.node kids) →
      (metablock (run e (new dict params) ops) t w).2.1 = some kids) ∧
    (t ∈ params → (∀ kids, ¬ First t dict (.node kids)) →
      (metablock (run e (new dict params) ops) t w).2.1 = some dict) := by
  obtain ⟨h1, h2, h3⟩ := coherent_run e (new dict params) ops (coherent_new e dict params) ho
  have h2' : (run e (new dict params) ops).dict = dict := h2
  have h3' : (run e (new dict params) ops).params = params := h3
  generalize run e (new dict params) ops = s at *
  have hans : t ∈ params → (metablock s t w).2.1 = some (blockInterior dict t) := by
    intro hp
    have hc : ¬ s.params.count t = 0 := by
      rw [h3']; have := List.count_pos_iff.2 hp; omega
    unfold metablock
    rw [if_neg hc]
    simp only
    cases hr : recall t s.blocks with
    | none => simp only; rw [h2']
    | some v =>
      have := h1.2 _ (recall_mem hr)
      rw [h2'] at this
      exact congrArg some this
  refine ⟨?_, ?_, ?_⟩
  · intro hn
    unfold metablock
    rw [h3', if_pos (List.count_eq_zero.2 hn)]
  · intro hp kids hv
    rw [hans hp]
    unfold blockInterior
    rw [digValue_of_first t dict _ hv]
  · intro hp hno
    rw [hans hp]
    unfold blockInterior
    cases hv : digValue t dict with
    | none => rfl
    | some v =>
      cases v with
      | leaf a => rfl
      | node kids => exact absurd ((digValue_iff t dict _).1 hv) (hno kids)

/-- **C17 (identifiers).** The identifiers are what lookups of the identifier fields give. -/
theorem C17_identifiers (e : Env α D K) (dict : MDict α) (params : List Str) (empty : D)
    (hh : e.hashable empty = true) (shown : Tree α ⊕ D → Tree α ⊕ D) (fields : List Str) (f : Str)
    (hf : f ∈ fields) (v : Tree α) (hp : f ∈ params) (hv : First f dict v) (hn : noneValue e v = false) :
    (f, .ok (shown (.inl v))) ∈ identifiers e (new dict params) empty shown fields := by
  have key : ∀ (fields : List Str) (ops : List (Op α D)), (∀ o ∈ ops, o.isEdit = false) → f ∈ fields →
      (f, .ok (shown (.inl v))) ∈ identifiers e (run e (new dict params) ops) empty shown fields := by
    intro fields
    induction fields with
    | nil => intro _ _ h; cases h
    | cons g gs ih =>
      intro ops ho hm
      simp only [identifiers]
      by_cases hg : f = g
      · subst hg
        have := (C17_metaget e dict params ops ho f empty false).2.1 hp hh v hv hn
        rw [this]
        exact List.mem_cons.2 (.inl rfl)
      · have hm' : f ∈ gs := by
          rcases List.mem_cons.1 hm with h | h
          · exact absurd h hg
          · exact h
        refine List.mem_cons_of_mem _ ?_
        have := ih (ops ++ [.get g empty false]) (by
          intro o ho'
          rcases List.mem_append.1 ho' with h | h
          · exact ho o h
          · simp only [List.mem_singleton] at h; subst h; rfl) hm'
        simpa [run, List.foldl_append, step] using this
  exact key fields [] (fun o h => by cases h) hf

/-! ### C46: limits -/

/-- **C46 (limit).** A lookup with an unhashable default (a list or a dictionary) fails with TypeError
whenever the label has the parameter, whatever happened before. -/
theorem C46_unhashable_default (e : Env α D K) (s : State α D K) (t : Str) (d : D) (w : Bool)
    (hp : t ∈ s.params) (hh : e.hashable d = false) : (metaget e s t d w).2.1 = .error .typeError := by
  have hc : ¬ s.params.count t = 0 := by
    have := List.count_pos_iff.2 hp; omega
  unfold metaget
  rw [if_neg hc]
  simp [hh]

theorem run_params (e : Env α D K) (s : State α D K) (ops : List (Op α D)) : (run e s ops).params = s.params := by
  induction ops generalizing s with
  | nil => rfl
  | cons o os ih =>
    simp only [run, List.foldl_cons] at ih ⊢
    rw [ih]
    cases o with
    | get t d w => exact (metaget_frame e s t d w).2.1
    | block t w => exact (metablock_frame s t w).2.1
    | edit _ => rfl
    | refresh => rfl

/-- **C46 (limit).** A parameter that was not in the label when it was read is never found by lookups,
whatever is added to the mapping later and however often the memo is refreshed. -/
theorem C46_added_parameters_not_found (e : Env α D K) (dict : MDict α) (params : List Str) (ops : List (Op α D))
    (t : Str) (d : D) (w : Bool) (hn : t ∉ params) :
    (metaget e (run e (new dict params) ops) t d w).2.1 = .ok (.inr d) ∧
    (metablock (run e (new dict params) ops) t w).2.1 = none := by
  have hp : (run e (new dict params) ops).params = params := run_params e _ _
  unfold metaget metablock
  rw [hp, if_pos (List.count_eq_zero.2 hn), if_pos (List.count_eq_zero.2 hn)]
  exact ⟨rfl, rfl⟩

theorem recall_kept (e : Env α D K) (s : State α D K) (ops : List (Op α D)) (k : Str × K) (v : Tree α ⊕ D)
    (hr : recall k s.memo = some v) (hno : ∀ o ∈ ops, o ≠ .refresh) : recall k (run e s ops).memo = some v := by
  induction ops generalizing s with
  | nil => exact hr
  | cons o os ih =>
    simp only [run, List.foldl_cons] at ih ⊢
    refine ih _ ?_ (fun o' h' => hno o' (List.mem_cons_of_mem _ h'))
    cases o with
    | get t d w =>
      simp only [step]
      unfold metaget
      split
      · exact hr
      · simp only
        split
        · exact hr
        · cases hq : recall (t, e.key d) s.memo with
          | some v' => exact hr
          | none =>
            simp only [recall]
            rw [if_neg]
            · exact hr
            · intro he; rw [he, hr] at hq; cases hq
    | block t w => simp only [step]; rw [(metablock_frame s t w).2.2]; exact hr
    | edit _ => exact hr
    | refresh => exact absurd rfl (hno .refresh (by simp))

/-- **C17 (repeatable).** A lookup that was answered once is answered the same way again until the memo is
refreshed, even if the mapping was changed in between (as documented). -/
theorem C17_repeatable (e : Env α D K) (s : State α D K) (t : Str) (d : D) (w w' : Bool) (a : Tree α ⊕ D)
    (h : (metaget e s t d w).2.1 = .ok a) (ops : List (Op α D)) (hno : ∀ o ∈ ops, o ≠ .refresh) :
    (metaget e (run e (metaget e s t d w).1 ops) t d w').2.1 = .ok a := by
  by_cases hc : s.params.count t = 0
  · have hp : (run e (metaget e s t d w).1 ops).params = s.params := by
      rw [run_params]; exact (metaget_frame e s t d w).2.1
    have ha : a = .inr d := by
      unfold metaget at h
      rw [if_pos hc] at h
      exact (Except.ok.inj h).symm
    rw [ha]
    generalize run e (metaget e s t d w).1 ops = s' at hp
    unfold metaget
    rw [hp, if_pos hc]
  · by_cases hh : e.hashable d = false
    · rw [C46_unhashable_default e s t d w (List.count_pos_iff.1 (by omega)) hh] at h; cases h
    · have hr : recall (t, e.key d) (metaget e s t d w).1.memo = some a := by
        unfold metaget at h ⊢
        rw [if_neg hc] at h ⊢
        simp only [hh, if_false] at h ⊢
        cases hq : recall (t, e.key d) s.memo with
        | some v =>
          rw [hq] at h
          have := Except.ok.inj h
          subst this
          exact hq
        | none =>
          rw [hq] at h
          have := Except.ok.inj h
          subst this
          simp [recall]
      have hr' := recall_kept e _ ops _ _ hr hno
      have hp : (run e (metaget e s t d w).1 ops).params = s.params := by
        rw [run_params]; exact (metaget_frame e s t d w).2.1
      generalize run e (metaget e s t d w).1 ops = s' at hp hr'
      unfold metaget
      rw [hp, if_neg hc]
      simp only [hh, hr']
      rfl

/-- **C17 (refresh).** After a refresh, a first lookup sees the mapping as it is now. -/
theorem C17_refresh (e : Env α D K) (s : State α D K) (t : Str) (d : D) (w : Bool) (hp : t ∈ s.params)
    (hh : e.hashable d = true) (v : Tree α) (hv : First t s.dict v) (hn : noneValue e v = false) :
    (metaget e (refresh s) t d w).2.1 = .ok (.inl v) := by
  have := (C17_metaget e s.dict s.params [] (fun o h => by cases h) t d w).2.1 hp hh v hv hn
  exact this

/-! ### examples -/

/-- a label with a repeated keyword, a block and a nested keyword -/
def exampleLabel : MDict Nat :=
  [(c!"A", .leaf 1), (c!"B", .node [(c!"C", .leaf 2), (c!"A", .leaf 3)]), (c!"C", .leaf 4)]

/-- everything is hashable, nothing is None -/
def exampleEnv : Env Nat Nat Nat := ⟨fun n => n == 0, fun _ => true, id⟩

example : First c!"A" exampleLabel (.leaf 1) := .here (pre := []) (by simp)
example : First c!"C" exampleLabel (.leaf 4) :=
  .here (pre := [(c!"A", .leaf 1), (c!"B", .node [(c!"C", .leaf 2), (c!"A", .leaf 3)])]) (by decide)
example : (metaget exampleEnv (new exampleLabel (keys exampleLabel)) c!"A" 0 true).2.2 = true := by decide

end Verif.Meta
