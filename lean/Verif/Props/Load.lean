/-
C18: lazy loading. C47: its limits.
-/
import Verif.Spec.Load

namespace Verif.Load
open Verif.Py Verif.Load.Spec

variable {V : Type}

/-! ### taking in a loader's result -/

theorem given_cons_none (k : Str) (l : List (Str × Option V)) (n : Str) : given ((k, none) :: l) n = given l n := by
  unfold given
  by_cases h : k = n <;> simp [h]

theorem given_cons_other (k : Str) (v : Option V) (l : List (Str × Option V)) (n : Str) (h : k ≠ n) :
    given ((k, v) :: l) n = given l n := by
  unfold given
  simp [h]

theorem given_cons_self (v : V) (l : List (Str × Option V)) (n : Str) :
    given ((n, some v) :: l) n = some ((given l n).getD v) := by
  unfold given
  simp only [List.filterMap_cons, if_true]
  rw [List.getLast?_cons]

theorem addObjs_frame (s : State V) (l : List (Str × Option V)) :
    (addObjs s l).mapped = s.mapped ∧ (addObjs s l).asked = s.asked ∧ (addObjs s l).warned = s.warned := by
  induction l generalizing s with
  | nil => exact ⟨rfl, rfl, rfl⟩
  | cons kv rest ih =>
    obtain ⟨k, v⟩ := kv
    cases v with
    | none => exact ih s
    | some v =>
      simp only [addObjs]
      obtain ⟨h1, h2, h3⟩ := ih (if k ∈ s.index then setAttr s k (some v)
        else { setAttr s k (some v) with index := (setAttr s k (some v)).index ++ [k] })
      rw [h1, h2, h3]
      split <;> exact ⟨rfl, rfl, rfl⟩

theorem addObjs_attrs (s : State V) (l : List (Str × Option V)) (n : Str) :
    (addObjs s l).attrs n = match given l n with
      | some v => some (some v)
      | none => s.attrs n := by
  induction l generalizing s with
  | nil => rfl
  | cons kv rest ih =>
    obtain ⟨k, v⟩ := kv
    cases v with
    | none => simp only [addObjs, given_cons_none]; exact ih s
    | some v =>
      simp only [addObjs]
      rw [ih]
      have hat : (if k ∈ s.index then setAttr s k (some v)
        else { setAttr s k (some v) with index := (setAttr s k (some v)).index ++ [k] }).attrs n
          = if n = k then some (some v) else s.attrs n := by
        split <;> rfl
      rw [hat]
      by_cases h : k = n
      · subst h
        rw [given_cons_self]
        cases given rest k <;> simp
      · rw [given_cons_other _ _ _ _ h, if_neg (fun h' => h h'.symm)]

theorem Grows.refl (a : List Str) : Grows a a := ⟨[], by simp, by simp, by simp⟩

theorem Grows.trans {a b c : List Str} (h1 : Grows a b) (h2 : Grows b c) : Grows a c := by
  obtain ⟨x, rfl, hx, hx'⟩ := h1
  obtain ⟨y, rfl, hy, hy'⟩ := h2
  refine ⟨x ++ y, by simp, ?_, ?_⟩
  · rw [List.nodup_append]
    refine ⟨hx, hy, ?_⟩
    rintro p hp q hq rfl
    exact hy' p hq (List.mem_append.2 (.inr hp))
  · intro n hn
    rcases List.mem_append.1 hn with h | h
    · exact hx' n h
    · exact fun ha => hy' n h (List.mem_append.2 (.inl ha))

theorem Grows.mem {a b : List Str} (h : Grows a b) {n : Str} (hn : n ∈ a) : n ∈ b := by
  obtain ⟨x, rfl, _, _⟩ := h
  exact List.mem_append.2 (.inl hn)

theorem Grows.nodup {a b : List Str} (h : Grows a b) (ha : a.Nodup) : b.Nodup := by
  obtain ⟨x, rfl, hx, hx'⟩ := h
  rw [List.nodup_append]
  refine ⟨ha, hx, ?_⟩
  rintro p hp q hq rfl
  exact hx' p hq hp

theorem addObjs_index (s : State V) (l : List (Str × Option V)) :
    Grows s.index (addObjs s l).index ∧
    ∀ n, n ∈ (addObjs s l).index ↔ n ∈ s.index ∨ (given l n).isSome = true := by
  induction l generalizing s with
  | nil => exact ⟨Grows.refl _, fun n => by simp [addObjs, given]⟩
  | cons kv rest ih =>
    obtain ⟨k, v⟩ := kv
    cases v with
    | none =>
      simp only [addObjs]
      refine ⟨(ih s).1, fun n => ?_⟩
      rw [given_cons_none]
      exact (ih s).2 n
    | some v =>
      simp only [addObjs]
      generalize hs' : (if k ∈ s.index then setAttr s k (some v)
        else { setAttr s k (some v) with index := (setAttr s k (some v)).index ++ [k] }) = s'
      have hg : Grows s.index s'.index ∧ ∀ n, n ∈ s'.index ↔ n ∈ s.index ∨ n = k := by
        subst hs'
        by_cases hk : k ∈ s.index
        · rw [if_pos hk]
          refine ⟨Grows.refl _, fun n => ?_⟩
          constructor
          · exact .inl
          · rintro (h | rfl)
            · exact h
            · exact hk
        · rw [if_neg hk]
          refine ⟨⟨[k], rfl, by simp, ?_⟩, fun n => ?_⟩
          · intro n hn
            simp only [List.mem_singleton] at hn
            subst hn; exact hk
          · simp [setAttr]
      refine ⟨Grows.trans hg.1 (ih s').1, fun n => ?_⟩
      rw [(ih s').2 n, hg.2 n]
      by_cases h : k = n
      · subst h
        rw [given_cons_self]
        simp
      · rw [given_cons_other _ _ _ _ h]
        have : n ≠ k := fun h' => h h'.symm
        simp [this]

/-! ### one load -/

/-- the state in which the loader is called -/
theorem load_cases (e : Env V) (s : State V) (name : Str) (reload : Bool) :
    (load e s name reload = (s, .err .keyError) ∧ name ∉ s.index) ∨
    (load e s name reload = (s, .err .alreadyLoaded) ∧ name ∈ s.index ∧ loaded e s name = true ∧ reload = false) ∨
    (name ∈ s.index ∧ (loaded e s name = true → reload = true) ∧
      ((e.standard = .pds3 ∧ load e s name reload = locateThenLoad e s name) ∨
       (e.standard ≠ .pds3 ∧ load e s name reload = loadOther e s name))) := by
  unfold load
  by_cases h1 : name ∉ s.index
  · left; rw [if_pos h1]; exact ⟨rfl, h1⟩
  · right
    rw [if_neg h1]
    have h1' : name ∈ s.index := Decidable.not_not.1 h1
    by_cases h2 : loaded e s name = true ∧ reload = false
    · left; rw [if_pos h2]; exact ⟨rfl, h1', h2⟩
    · right
      rw [if_neg h2]
      refine ⟨h1', ?_, ?_⟩
      · intro hl
        cases reload with
        | true => rfl
        | false => exact absurd ⟨hl, rfl⟩ h2
      · by_cases h3 : e.standard = .pds3
        · left; rw [if_pos h3]; exact ⟨h3, rfl⟩
        · right; rw [if_neg h3]; exact ⟨h3, rfl⟩

theorem loadPds3_frame (e : Env V) (s : State V) (name : Str) :
    Grows s.index (loadPds3 e s name).1.index ∧
    (∀ n, (s.attrs n).isSome = true → ((loadPds3 e s name).1.attrs n).isSome = true) ∧
    (∀ n ∈ (loadPds3 e s name).1.index, n ∈ s.index ∨ ((loadPds3 e s name).1.attrs n).isSome = true) := by
  unfold loadPds3
  split
  · exact ⟨Grows.refl _, fun _ h => h, fun _ h => .inl h⟩
  · rename_i l _
    refine ⟨(addObjs_index (tick s) l).1, ?_, ?_⟩
    · intro n h
      simp only [addObjs_attrs]
      split
      · rfl
      · exact h
    · intro n hn
      rcases ((addObjs_index (tick s) l).2 n).1 hn with h | h
      · exact .inl h
      · right
        simp only [addObjs_attrs]
        cases hg : given l n with
        | some v => rfl
        | none => rw [hg] at h; cases h
  all_goals
    refine ⟨Grows.refl _, ?_, fun _ h => .inl h⟩
    intro n h
    simp only [fallBack, setAttr, tick]
    first
      | exact h
      | (split
         · rfl
         · exact h)

theorem loadOther_frame (e : Env V) (s : State V) (name : Str) :
    Grows s.index (loadOther e s name).1.index ∧
    (∀ n, (s.attrs n).isSome = true → ((loadOther e s name).1.attrs n).isSome = true) ∧
    (∀ n ∈ (loadOther e s name).1.index, n ∈ s.index ∨ ((loadOther e s name).1.attrs n).isSome = true) := by
  unfold loadOther
  split
  · exact ⟨Grows.refl _, fun _ h => h, fun _ h => .inl h⟩
  · rename_i l _
    refine ⟨(addObjs_index (tick s) l).1, ?_, ?_⟩
    · intro n h
      simp only [addObjs_attrs]
      split
      · rfl
      · exact h
    · intro n hn
      rcases ((addObjs_index (tick s) l).2 n).1 hn with h | h
      · exact .inl h
      · right
        simp only [addObjs_attrs]
        cases hg : given l n with
        | some v => rfl
        | none => rw [hg] at h; cases h
  · split
    · refine ⟨Grows.refl _, ?_, fun _ h => .inl h⟩
      intro n h
      simp only [setAttr, tick]
      split
      · rfl
      · exact h
    · exact ⟨Grows.refl _, fun _ h => h, fun _ h => .inl h⟩
  all_goals exact ⟨Grows.refl _, fun _ h => h, fun _ h => .inl h⟩

theorem load_frame (e : Env V) (s : State V) (name : Str) (reload : Bool) :
    Grows s.index (load e s name reload).1.index ∧
    (∀ n, (s.attrs n).isSome = true → ((load e s name reload).1.attrs n).isSome = true) ∧
    (∀ n ∈ (load e s name reload).1.index,
      n ∈ s.index ∨ ((load e s name reload).1.attrs n).isSome = true) := by
  rcases load_cases e s name reload with ⟨h, _⟩ | ⟨h, _⟩ | ⟨_, _, ⟨_, h⟩ | ⟨_, h⟩⟩
  · rw [h]; exact ⟨Grows.refl _, fun _ h => h, fun _ h => .inl h⟩
  · rw [h]; exact ⟨Grows.refl _, fun _ h => h, fun _ h => .inl h⟩
  · rw [h]
    unfold locateThenLoad
    split
    · exact loadPds3_frame e s name
    · split
      · exact loadPds3_frame e _ name
      · split
        · exact ⟨Grows.refl _, fun _ h => h, fun _ h => .inl h⟩
        · refine ⟨Grows.refl _, ?_, fun _ h => .inl h⟩
          intro n h
          simp only [fallBack, setAttr]
          split
          · rfl
          · exact h
  · rw [h]; exact loadOther_frame e s name

theorem loaded_mono (e : Env V) (s : State V) (name : Str) (reload : Bool) (n : Str) (h : loaded e s n = true) :
    loaded e (load e s name reload).1 n = true := by
  simp only [loaded, Bool.or_eq_true] at h ⊢
  rcases h with h | h
  · exact .inl h
  · exact .inr ((load_frame e s name reload).2.1 n h)

/-- **C18 (unknown names).** Loading a name that is not in the list raises KeyError and changes nothing;
getting it raises AttributeError and changes nothing, unless it is an attribute. -/
theorem C18_unknown (e : Env V) (s : State V) (name : Str) (reload : Bool) (h : name ∉ s.index) :
    load e s name reload = (s, .err .keyError) ∧
    (e.builtin name = false → s.attrs name = none → get e s name = (s, .err .attributeError)) := by
  constructor
  · unfold load; rw [if_pos h]
  · intro hb ha
    unfold get
    simp [hb, ha, h]

/-- **C18 (no reload).** Without `reload`, an object that is loaded is not loaded again: AlreadyLoadedError,
nothing changes, no loader is asked. -/
theorem C18_already_loaded (e : Env V) (s : State V) (name : Str) (hi : name ∈ s.index)
    (hl : (s.attrs name).isSome = true) : load e s name false = (s, .err .alreadyLoaded) := by
  unfold load
  rw [if_neg (by simpa using hi), if_pos]
  exact ⟨by simp [loaded, hl], rfl⟩

/-- **C18 (values).** What a load of an object that is in the list and not loaded (or reloaded) leaves as its
value, for a PDS3 product whose file is found: the value the loader gives, the metadata value if the loader
fails; other objects keep theirs unless the loader gave a value for them. -/
theorem C18_load_value (e : Env V) (s : State V) (name : Str) (reload : Bool) (hs : e.standard = .pds3)
    (hi : name ∈ s.index) (hr : loaded e s name = true → reload = true)
    (hf : name ∈ s.mapped ∨ e.target s.asked name = true) :
    (∀ l, e.ask s.asked name = .objs l → (load e s name reload).2 = .ok ∧
      ∀ n, (load e s name reload).1.attrs n = match given l n with
        | some v => some (some v)
        | none => s.attrs n) ∧
    ((∃ x, e.ask s.asked name = .fails x) ∨ (∃ v, e.ask s.asked name = .direct v) →
      (load e s name reload).2 = .ok ∧ (load e s name reload).1.warned = s.warned + 1 ∧
      ∀ n, (load e s name reload).1.attrs n = if n = name then some (e.metaget name) else s.attrs n) ∧
    (e.ask s.asked name = .nothing ∨ e.ask s.asked name = .interrupt →
      (load e s name reload).1.attrs = s.attrs ∧ (load e s name reload).1.index = s.index) := by
  have hload : ∃ s', load e s name reload = loadPds3 e s' name ∧ s'.attrs = s.attrs ∧ s'.asked = s.asked ∧
      s'.index = s.index ∧ s'.warned = s.warned := by
    rcases load_cases e s name reload with ⟨_, h⟩ | ⟨_, _, h, h'⟩ | ⟨_, _, ⟨_, h⟩ | ⟨h, _⟩⟩
    · exact absurd hi h
    · have := hr h; rw [this] at h'; cases h'
    · rw [h]
      unfold locateThenLoad
      by_cases hm : name ∈ s.mapped
      · rw [if_pos hm]; exact ⟨s, rfl, rfl, rfl, rfl, rfl⟩
      · rw [if_neg hm]
        rcases hf with h' | h'
        · exact absurd h' hm
        · rw [if_pos h']; exact ⟨_, rfl, rfl, rfl, rfl, rfl⟩
    · exact absurd hs h
  obtain ⟨s', h, ha, hk, hx, hw⟩ := hload
  rw [h]
  unfold loadPds3
  rw [hk]
  refine ⟨?_, ?_, ?_⟩
  · intro l hl
    rw [hl]
    refine ⟨rfl, fun n => ?_⟩
    simp only [addObjs_attrs, tick, ha]
  · rintro (⟨x, hx'⟩ | ⟨v, hx'⟩)
    all_goals
      rw [hx']
      refine ⟨rfl, ?_, fun n => ?_⟩
      · simp [fallBack, setAttr, tick, hw]
      · simp only [fallBack, setAttr, tick, ha]
  · rintro (hx' | hx')
    all_goals
      rw [hx']
      exact ⟨ha, hx⟩

/-- **C18 (missing file).** If no file is found for an object of a PDS3 product, its value is the metadata
value and a warning is given; in debug mode FileNotFoundError is raised and nothing changes. No loader is
asked. -/
theorem C18_missing_file (e : Env V) (s : State V) (name : Str) (reload : Bool) (hs : e.standard = .pds3)
    (hi : name ∈ s.index) (hr : loaded e s name = true → reload = true) (hm : name ∉ s.mapped)
    (ht : e.target s.asked name = false) :
    (e.debug = true → load e s name reload = (s, .err .fileNotFound)) ∧
    (e.debug = false → (load e s name reload).2 = .ok ∧ (load e s name reload).1.asked = s.asked ∧
      (load e s name reload).1.warned = s.warned + 1 ∧ (load e s name reload).1.index = s.index ∧
      ∀ n, (load e s name reload).1.attrs n = if n = name then some (e.metaget name) else s.attrs n) := by
  rcases load_cases e s name reload with ⟨_, h⟩ | ⟨_, _, h, h'⟩ | ⟨_, _, ⟨_, h⟩ | ⟨h, _⟩⟩
  · exact absurd hi h
  · have := hr h; rw [this] at h'; cases h'
  · rw [h]
    unfold locateThenLoad
    rw [if_neg hm]
    simp only [ht, Bool.false_eq_true, if_false]
    constructor
    · intro hd; rw [if_pos hd]
    · intro hd
      simp only [hd, Bool.false_eq_true, if_false]
      refine ⟨trivial, ?_, ?_, ?_, fun n => rfl⟩ <;> rfl
  · exact absurd hs h

/-- **C18 (PDS3 loads do not fail).** Outside debug mode, loading an object of a PDS3 product by a name in its
list ends normally, or says that it is loaded already, or was interrupted by the user. -/
theorem C18_pds3_never_raises (e : Env V) (s : State V) (name : Str) (reload : Bool) (hs : e.standard = .pds3)
    (hd : e.debug = false) (hi : name ∈ s.index) :
    (load e s name reload).2 = .ok ∨ (load e s name reload).2 = .err .alreadyLoaded ∨
    (load e s name reload).2 = .interrupt := by
  have h3 : ∀ s', (loadPds3 e s' name).2 = .ok ∨ (loadPds3 e s' name).2 = .interrupt := by
    intro s'
    unfold loadPds3
    split
    all_goals first | exact .inl rfl | exact .inr rfl
  rcases load_cases e s name reload with ⟨_, h⟩ | ⟨h, _⟩ | ⟨_, _, ⟨_, h⟩ | ⟨h, _⟩⟩
  · exact absurd hi h
  · rw [h]; exact .inr (.inl rfl)
  · rw [h]
    unfold locateThenLoad
    split
    · rcases h3 s with h | h
      · exact .inl h
      · exact .inr (.inr h)
    · split
      · rcases h3 { s with mapped := name :: s.mapped } with h | h
        · exact .inl h
        · exact .inr (.inr h)
      · rw [hd]; exact .inl rfl
  · exact absurd hs h

/-- **C18 (other products).** FITS files, image files and PDS4 products: errors of the reader reach the caller
and leave every object as it was; otherwise the values are those the reader gives. -/
theorem C18_load_other (e : Env V) (s : State V) (name : Str) (reload : Bool) (hs : e.standard ≠ .pds3)
    (hi : name ∈ s.index) (hr : loaded e s name = true → reload = true) :
    (∀ l, e.ask s.asked name = .objs l → (load e s name reload).2 = .ok ∧
      ∀ n, (load e s name reload).1.attrs n = match given l n with
        | some v => some (some v)
        | none => s.attrs n) ∧
    (∀ v, e.standard = .pds4 → e.ask s.asked name = .direct v → (load e s name reload).2 = .ok ∧
      ∀ n, (load e s name reload).1.attrs n = if n = name then some v else s.attrs n) ∧
    (∀ x, e.ask s.asked name = .fails x → (load e s name reload).2 = .err x ∧
      (load e s name reload).1.attrs = s.attrs ∧ (load e s name reload).1.index = s.index) := by
  rcases load_cases e s name reload with ⟨_, h⟩ | ⟨_, _, h, h'⟩ | ⟨_, _, ⟨h, _⟩ | ⟨_, h⟩⟩
  · exact absurd hi h
  · have := hr h; rw [this] at h'; cases h'
  · exact absurd h hs
  · rw [h]
    unfold loadOther
    refine ⟨?_, ?_, ?_⟩
    · intro l hl
      rw [hl]
      refine ⟨rfl, fun n => ?_⟩
      simp only [addObjs_attrs, tick]
    · intro v h4 hv
      rw [hv]
      simp only [h4, if_true]
      exact ⟨trivial, fun n => rfl⟩
    · intro x hx
      rw [hx]
      exact ⟨rfl, rfl, rfl⟩

/-! ### getting -/

/-- **C18 (lazy loading).** Getting an object that is not loaded loads it and gives the value the load
left. -/
theorem C18_get_loads (e : Env V) (s : State V) (name : Str) (hb : e.builtin name = false)
    (hi : name ∈ s.index) (hn : s.attrs name = none) (v : Option V)
    (hok : (load e s name false).2 = .ok) (hv : (load e s name false).1.attrs name = some v) :
    get e s name = ((load e s name false).1, .value v) := by
  unfold get
  simp only [hb, Bool.false_eq_true, if_false, hn]
  rw [if_neg (by simpa using hi)]
  generalize load e s name false = p at *
  obtain ⟨s', r⟩ := p
  simp only at hok hv
  subst hok
  simp [hv]

/-- **C18 (stable values).** If getting an object gave a value, getting it again gives the same value, changes
nothing and asks no loader. -/
theorem C18_get_stable (e : Env V) (s : State V) (name : Str) (v : Option V)
    (h : (get e s name).2 = .value v) : get e (get e s name).1 name = ((get e s name).1, .value v) := by
  by_cases hb : e.builtin name = true
  · unfold get at h; rw [if_pos hb] at h; cases h
  have key : (get e s name).1.attrs name = some v := by
    unfold get at h ⊢
    rw [if_neg hb] at h ⊢
    cases ha : s.attrs name with
    | some w =>
      simp only [ha] at h ⊢
      cases h; rfl
    | none =>
      simp only [ha] at h ⊢
      by_cases hi : name ∉ s.index
      · rw [if_pos hi] at h; cases h
      · rw [if_neg hi] at h ⊢
        generalize load e s name false = p at *
        obtain ⟨s', r⟩ := p
        cases r with
        | ok =>
          simp only at h ⊢
          cases hq : s'.attrs name with
          | none => rw [hq] at h; cases h
          | some w => rw [hq] at h; cases h; rfl
        | err x => cases h
        | interrupt => cases h
  generalize (get e s name).1 = s' at *
  unfold get
  rw [if_neg hb, key]

/-! ### loading everything -/

/-- a step of `load_all` is one of the four -/
theorem loadAll_det (e : Env V) {i : Nat} {s s1 s2 : State V} {r1 r2 : Res} (h1 : LoadAll e i s s1 r1)
    (h2 : LoadAll e i s s2 r2) : s1 = s2 ∧ r1 = r2 := by
  induction h1 generalizing s2 r2 with
  | done h =>
    cases h2 with
    | done => exact ⟨rfl, rfl⟩
    | skip hn => rw [List.getElem?_eq_none h] at hn; cases hn
    | next hn => rw [List.getElem?_eq_none h] at hn; cases hn
    | stop hn => rw [List.getElem?_eq_none h] at hn; cases hn
  | skip hn hi _ ih =>
    cases h2 with
    | done h => rw [List.getElem?_eq_none h] at hn; cases hn
    | skip _ _ h => exact ih h
    | next hn' hi' => rw [hn] at hn'; cases hn'; rw [hi] at hi'; cases hi'
    | stop hn' hi' => rw [hn] at hn'; cases hn'; rw [hi] at hi'; cases hi'
  | next hn hi hl hr _ ih =>
    cases h2 with
    | done h => rw [List.getElem?_eq_none h] at hn; cases hn
    | skip hn' hi' => rw [hn] at hn'; cases hn'; rw [hi] at hi'; cases hi'
    | next hn' hi' hl' _ h =>
      rw [hn] at hn'; cases hn'
      rw [hl] at hl'; cases hl'
      exact ih h
    | stop hn' hi' hl' h1 h2 =>
      rw [hn] at hn'; cases hn'
      rw [hl] at hl'; cases hl'
      rcases hr with hr | hr
      · exact absurd hr h1
      · exact absurd hr h2
  | stop hn hi hl g1 g2 =>
    cases h2 with
    | done h => rw [List.getElem?_eq_none h] at hn; cases hn
    | skip hn' hi' => rw [hn] at hn'; cases hn'; rw [hi] at hi'; cases hi'
    | next hn' hi' hl' hr h =>
      rw [hn] at hn'; cases hn'
      rw [hl] at hl'; cases hl'
      rcases hr with hr | hr
      · exact absurd hr g1
      · exact absurd hr g2
    | stop hn' hi' hl' _ _ =>
      rw [hn] at hn'; cases hn'
      rw [hl] at hl'; cases hl'
      exact ⟨rfl, rfl⟩

theorem loadAll_tail (e : Env V) (s : State V) : ∀ (k i : Nat), s.index.length - i = k →
    (∀ j, i ≤ j → ∀ n, s.index[j]? = some n → loaded e s n = true) → LoadAll e i s s .ok := by
  intro k
  induction k with
  | zero => intro i h _; exact .done (by omega)
  | succ k ih =>
    intro i h hall
    have hlt : i < s.index.length := by omega
    have hn : s.index[i]? = some s.index[i] := List.getElem?_eq_getElem hlt
    have hrest := ih (i + 1) (by omega) (fun j hj => hall j (by omega))
    cases hg : ignored s.index[i] with
    | true => exact .skip hn hg hrest
    | false =>
      have hl := hall i (Nat.le_refl _) _ hn
      have : load e s s.index[i] false = (s, .err .alreadyLoaded) := by
        unfold load
        rw [if_neg (by simp), if_pos ⟨hl, rfl⟩]
      exact .next hn hg this (.inr rfl) hrest

theorem loadAll_total (e : Env V) : ∀ (k i : Nat) (s : State V) (n0 : Nat), n0 - i = k →
    (∀ j, n0 ≤ j → ∀ n, s.index[j]? = some n → loaded e s n = true) → n0 ≤ s.index.length →
    ∃ s' r, LoadAll e i s s' r := by
  intro k
  induction k with
  | zero =>
    intro i s n0 h hall _
    exact ⟨s, .ok, loadAll_tail e s _ i rfl (fun j hj => hall j (by omega))⟩
  | succ k ih =>
    intro i s n0 h hall hle
    have hlt : i < s.index.length := by omega
    have hn : s.index[i]? = some s.index[i] := List.getElem?_eq_getElem hlt
    cases hg : ignored s.index[i] with
    | true =>
      obtain ⟨s', r, h'⟩ := ih (i + 1) s n0 (by omega) hall hle
      exact ⟨s', r, .skip hn hg h'⟩
    | false =>
      generalize hl : load e s s.index[i] false = p
      obtain ⟨s1, r1⟩ := p
      by_cases hr : r1 = .ok ∨ r1 = .err .alreadyLoaded
      · have hfr := load_frame e s s.index[i] false
        have hs1 : s1 = (load e s s.index[i] false).1 := by rw [hl]
        rw [← hs1] at hfr
        obtain ⟨⟨extra, hx, _, hx'⟩, _, hnew⟩ := hfr
        obtain ⟨s', r, h'⟩ := ih (i + 1) s1 n0 (by omega) (by
          intro j hj n hjn
          by_cases hjl : j < s.index.length
          · have : s.index[j]? = some n := by
              rw [hx, List.getElem?_append_left hjl] at hjn; exact hjn
            rw [hs1]
            exact loaded_mono e s _ false n (hall j hj n this)
          · have hmem : n ∈ extra := by
              rw [hx, List.getElem?_append_right (by omega)] at hjn
              exact List.mem_of_getElem? hjn
            have hin : n ∈ s1.index := by rw [hx]; exact List.mem_append.2 (.inr hmem)
            rcases hnew n hin with h | h
            · exact absurd h (hx' n hmem)
            · simp [loaded, h]) (by rw [hx, List.length_append]; omega)
        exact ⟨s', r, .next hn hg hl hr h'⟩
      · exact ⟨s1, r1, .stop hn hg hl (fun h => hr (.inl h)) (fun h => hr (.inr h))⟩

/-- **C18 (load all ends).** Loading everything always comes to an end, with one result, although the list of
names grows while it is being gone through. -/
theorem C18_load_all_ends (e : Env V) (s : State V) :
    ∃ s' r, LoadAll e 0 s s' r ∧ ∀ s'' r', LoadAll e 0 s s'' r' → s'' = s' ∧ r' = r := by
  obtain ⟨s', r, h⟩ := loadAll_total e s.index.length 0 s s.index.length (by omega) (by
    intro j hj n hn
    rw [List.getElem?_eq_none hj] at hn; cases hn) (Nat.le_refl _)
  exact ⟨s', r, h, fun s'' r' h' => loadAll_det e h' h⟩

/-- the loader gave no value for the object it was asked for -/
def GaveNothing (e : Env V) (k : Nat) (name : Str) : Prop :=
  e.ask k name = .nothing ∨ ∃ l, e.ask k name = .objs l ∧ given l name = none

theorem loadPds3_gives (e : Env V) (s : State V) (name : Str) (hok : (loadPds3 e s name).2 = .ok) :
    (loadPds3 e s name).1.asked = s.asked + 1 ∧
    (((loadPds3 e s name).1.attrs name).isSome = true ∨ GaveNothing e s.asked name) := by
  unfold loadPds3 at hok ⊢
  split
  · exact ⟨rfl, .inr (.inl (by assumption))⟩
  · rename_i l hl
    refine ⟨(addObjs_frame (tick s) l).2.1, ?_⟩
    simp only [addObjs_attrs]
    cases hg : given l name with
    | some v => exact .inl rfl
    | none => exact .inr (.inr ⟨l, hl, hg⟩)
  · exact ⟨rfl, .inl (by simp [fallBack, setAttr])⟩
  · exact ⟨rfl, .inl (by simp [fallBack, setAttr])⟩
  · rename_i h; rw [h] at hok; cases hok

theorem load_gives (e : Env V) (s : State V) (name : Str) (hok : (load e s name false).2 = .ok) :
    s.asked ≤ (load e s name false).1.asked ∧
    (loaded e (load e s name false).1 name = true ∨
      (GaveNothing e s.asked name ∧ s.asked < (load e s name false).1.asked)) := by
  rcases load_cases e s name false with ⟨h, _⟩ | ⟨h, _⟩ | ⟨_, _, ⟨_, h⟩ | ⟨_, h⟩⟩
  · rw [h] at hok; cases hok
  · rw [h] at hok; cases hok
  · rw [h] at hok ⊢
    unfold locateThenLoad at hok ⊢
    split
    · rename_i hm
      rw [if_pos hm] at hok
      obtain ⟨h1, h2⟩ := loadPds3_gives e s name hok
      rw [h1]
      refine ⟨by omega, ?_⟩
      rcases h2 with h2 | h2
      · left; simp [loaded, h2]
      · right; exact ⟨h2, by omega⟩
    · rename_i hm
      rw [if_neg hm] at hok
      split
      · rename_i ht
        rw [if_pos ht] at hok
        obtain ⟨h1, h2⟩ := loadPds3_gives e { s with mapped := name :: s.mapped } name hok
        rw [h1]
        refine ⟨Nat.le_succ _, ?_⟩
        rcases h2 with h2 | h2
        · left; simp [loaded, h2]
        · right; exact ⟨h2, Nat.lt_succ_self _⟩
      · rename_i ht
        rw [if_neg ht] at hok
        split
        · rename_i hd; rw [if_pos hd] at hok; cases hok
        · exact ⟨Nat.le_refl _, .inl (by simp [loaded, fallBack, setAttr])⟩
  · rw [h] at hok ⊢
    unfold loadOther at hok ⊢
    split
    · rename_i hx; rw [hx] at hok; cases hok
    · rename_i l hl
      rw [(addObjs_frame (tick s) l).2.1]
      refine ⟨Nat.le_succ _, ?_⟩
      cases hg : given l name with
      | some v => left; simp [loaded, addObjs_attrs, hg]
      | none => exact .inr ⟨.inr ⟨l, hl, hg⟩, Nat.lt_succ_self _⟩
    · rename_i v hv
      rw [hv] at hok
      simp only at hok ⊢
      split
      · exact ⟨Nat.le_succ _, .inl (by simp [loaded, setAttr])⟩
      · rename_i h4; rw [if_neg h4] at hok; cases hok
    · rename_i hx; rw [hx] at hok; cases hok
    · rename_i hx; rw [hx] at hok; cases hok

theorem load_asked (e : Env V) (s : State V) (name : Str) (reload : Bool) :
    s.asked ≤ (load e s name reload).1.asked := by
  have h3 : ∀ s' : State V, s'.asked ≤ (loadPds3 e s' name).1.asked := by
    intro s'
    unfold loadPds3
    split
    · exact Nat.le_succ _
    · rw [(addObjs_frame _ _).2.1]; exact Nat.le_succ _
    all_goals exact Nat.le_succ _
  rcases load_cases e s name reload with ⟨h, _⟩ | ⟨h, _⟩ | ⟨_, _, ⟨_, h⟩ | ⟨_, h⟩⟩
  · rw [h]; exact Nat.le_refl _
  · rw [h]; exact Nat.le_refl _
  · rw [h]
    unfold locateThenLoad
    split
    · exact h3 s
    · split
      · exact h3 { s with mapped := name :: s.mapped }
      · split <;> exact Nat.le_refl _
  · rw [h]
    unfold loadOther
    split
    · exact Nat.le_succ _
    · rw [(addObjs_frame _ _).2.1]; exact Nat.le_succ _
    · split <;> exact Nat.le_succ _
    all_goals exact Nat.le_succ _

theorem loadAll_frame (e : Env V) {i : Nat} {s s' : State V} {r : Res} (h : LoadAll e i s s' r) :
    Grows s.index s'.index ∧ (∀ n, loaded e s n = true → loaded e s' n = true) ∧ s.asked ≤ s'.asked ∧
    (∀ n ∈ s'.index, n ∈ s.index ∨ loaded e s' n = true) := by
  induction h with
  | done => exact ⟨Grows.refl _, fun _ h => h, Nat.le_refl _, fun _ h => .inl h⟩
  | skip _ _ _ ih => exact ih
  | @next i s s1 s' r r1 name hn hi hl hr _ ih =>
    have hs1 : s1 = (load e s name false).1 := by rw [hl]
    have hf := load_frame e s name false
    have hm := fun n => loaded_mono e s name false n
    have ha := load_asked e s name false
    rw [← hs1] at hf hm ha
    refine ⟨Grows.trans hf.1 ih.1, fun n h => ih.2.1 n (hm n h), Nat.le_trans ha ih.2.2.1, ?_⟩
    intro n h
    rcases ih.2.2.2 n h with h | h
    · rcases hf.2.2 n h with h | h
      · exact .inl h
      · exact .inr (ih.2.1 n (by simp [loaded, h]))
    · exact .inr h
  | @stop i s s1 r1 name hn hi hl _ _ =>
    have hs1 : s1 = (load e s name false).1 := by rw [hl]
    have hf := load_frame e s name false
    have hm := fun n => loaded_mono e s name false n
    have ha := load_asked e s name false
    rw [← hs1] at hf hm ha
    refine ⟨hf.1, hm, ha, ?_⟩
    intro n h
    rcases hf.2.2 n h with h | h
    · exact .inl h
    · exact .inr (by simp [loaded, h])

theorem load_not_already (e : Env V) (hna : ∀ k n, e.ask k n ≠ .fails .alreadyLoaded) (s : State V) (name : Str)
    (hl : loaded e s name = false) : (load e s name false).2 ≠ .err .alreadyLoaded := by
  have h3 : ∀ s', (loadPds3 e s' name).2 ≠ .err .alreadyLoaded := by
    intro s'
    unfold loadPds3
    split <;> (intro h; cases h)
  rcases load_cases e s name false with ⟨h, _⟩ | ⟨_, _, h, _⟩ | ⟨_, _, ⟨_, h⟩ | ⟨_, h⟩⟩
  · rw [h]; intro h; cases h
  · rw [hl] at h; cases h
  · rw [h]
    unfold locateThenLoad
    split
    · exact h3 _
    · split
      · exact h3 _
      · split <;> (intro h; cases h)
  · rw [h]
    unfold loadOther
    split
    · intro h; cases h
    · intro h; cases h
    · split <;> (intro h; cases h)
    · rename_i x hx
      intro h
      have : x = .alreadyLoaded := by simpa using h
      subst this
      exact hna _ _ hx
    · intro h; cases h

theorem loadAll_complete (e : Env V) (hna : ∀ k n, e.ask k n ≠ .fails .alreadyLoaded) {i : Nat} {s s' : State V} {r : Res} (h : LoadAll e i s s' r) (hok : r = .ok) :
    ∀ j, i ≤ j → ∀ n, s.index[j]? = some n → ignored n = false →
      loaded e s' n = true ∨ ∃ k, s.asked ≤ k ∧ k < s'.asked ∧ GaveNothing e k n := by
  induction h with
  | done h =>
    intro j hj n hn
    rw [List.getElem?_eq_none (by omega)] at hn; cases hn
  | @skip i s s' r name hn hi _ ih =>
    intro j hj n hjn hg
    by_cases h : j = i
    · subst h; rw [hn] at hjn; cases hjn; rw [hi] at hg; cases hg
    · exact ih hok j (by omega) n hjn hg
  | @next i s s1 s' r r1 name hn hi hl hr hrest ih =>
    have hs1 : s1 = (load e s name false).1 := by rw [hl]
    have hr1 : r1 = (load e s name false).2 := by rw [hl]
    have hfr := loadAll_frame e hrest
    have ha := load_asked e s name false
    have hf := load_frame e s name false
    rw [← hs1] at ha hf
    intro j hj n hjn hg
    by_cases h : j = i
    · subst h
      rw [hn] at hjn; cases hjn
      rcases hr with hr | hr
      · obtain ⟨_, h2⟩ := load_gives e s name (by rw [← hr1]; exact hr)
        rw [← hs1] at h2
        rcases h2 with h2 | ⟨h2, h3⟩
        · exact .inl (hfr.2.1 _ h2)
        · exact .inr ⟨s.asked, Nat.le_refl _, Nat.lt_of_lt_of_le h3 hfr.2.2.1, h2⟩
      · left
        apply hfr.2.1
        rcases load_cases e s name false with ⟨h, _⟩ | ⟨h, _, h', _⟩ | ⟨h1, h2, h3⟩
        · rw [hr1, h] at hr; cases hr
        · rw [hs1, h]; exact h'
        · cases hlo : loaded e s name with
          | true => rw [hs1]; exact loaded_mono e s name false name hlo
          | false =>
            exfalso
            exact load_not_already e hna s name hlo (by rw [← hr1]; exact hr)
    · obtain ⟨extra, hx, _, _⟩ := hf.1
      have hjn' : s1.index[j]? = some n := by
        have hlt : j < s.index.length := by
          rcases Nat.lt_or_ge j s.index.length with h | h
          · exact h
          · rw [List.getElem?_eq_none h] at hjn; cases hjn
        rw [hx, List.getElem?_append_left hlt]; exact hjn
      rcases ih hok j (by omega) n hjn' hg with h | ⟨k, h1, h2, h3⟩
      · exact .inl h
      · exact .inr ⟨k, Nat.le_trans ha h1, h2, h3⟩
  | stop _ _ _ h => exact absurd hok h

/-- **C18 (load all loads all).** If loading everything ends normally, then every object in the list
afterwards, except the descriptions left out on purpose, is loaded, or its loader was asked during this call
and gave no value for it. Readers do not raise AlreadyLoadedError (only `load` does). -/
theorem C18_load_all_complete (e : Env V) (hna : ∀ k n, e.ask k n ≠ .fails .alreadyLoaded) (s s' : State V)
    (h : LoadAll e 0 s s' .ok) (n : Str) (hn : n ∈ s'.index) (hg : ignored n = false) :
    loaded e s' n = true ∨ ∃ k, s.asked ≤ k ∧ k < s'.asked ∧ GaveNothing e k n := by
  rcases (loadAll_frame e h).2.2.2 n hn with h' | h'
  · obtain ⟨j, hj⟩ := List.mem_iff_getElem?.1 h'
    exact loadAll_complete e hna h rfl j (Nat.zero_le _) n hj hg
  · exact .inl h'

/-- **C18 (unloaded).** `unloaded()` lists the names of the list, in its order, that are neither set nor
taken by an attribute or method of pdr itself. -/
theorem C18_unloaded (e : Env V) (s : State V) :
    List.Sublist (unloaded e s) s.index ∧
    ∀ n, n ∈ unloaded e s ↔ n ∈ s.index ∧ e.builtin n = false ∧ s.attrs n = none := by
  refine ⟨List.filter_sublist, ?_⟩
  intro n
  simp only [unloaded, List.mem_filter, loaded, Bool.not_eq_true', Bool.or_eq_false_iff, Option.isSome_eq_false_iff,
    Option.isNone_iff_eq_none]

/-- **C18 (unloaded after load all).** After loading everything has ended normally, `unloaded()` holds only
names left out on purpose and names whose loader was asked during this call and gave no value. -/
theorem C18_unloaded_after_all (e : Env V) (hna : ∀ k n, e.ask k n ≠ .fails .alreadyLoaded) (s s' : State V)
    (h : LoadAll e 0 s s' .ok) (n : Str) (hn : n ∈ unloaded e s') :
    ignored n = true ∨ ∃ k, s.asked ≤ k ∧ k < s'.asked ∧ GaveNothing e k n := by
  obtain ⟨h1, h2, h3⟩ := ((C18_unloaded e s').2 n).1 hn
  cases hg : ignored n with
  | true => exact .inl rfl
  | false =>
    rcases C18_load_all_complete e hna s s' h n h1 hg with h4 | h4
    · simp [loaded, h2, h3] at h4
    · exact .inr h4

theorem loadAll_pds3 (e : Env V) (hs : e.standard = .pds3) (hd : e.debug = false) {i : Nat} {s s' : State V}
    {r : Res} (h : LoadAll e i s s' r) : r = .ok ∨ r = .interrupt := by
  induction h with
  | done => exact .inl rfl
  | skip _ _ _ ih => exact ih
  | next _ _ _ _ _ ih => exact ih
  | @stop i s s1 r1 name hn hi hl h1 h2 =>
    have := C18_pds3_never_raises e s name false hs hd (List.mem_of_getElem? hn)
    rw [hl] at this
    rcases this with h | h | h
    · exact absurd h h1
    · exact absurd h h2
    · exact .inr h

/-- **C18 (load all does not fail).** Outside debug mode, loading everything in a PDS3 product ends normally
unless the user interrupts it. -/
theorem C18_load_all_pds3_ok (e : Env V) (hs : e.standard = .pds3) (hd : e.debug = false) (s s' : State V)
    (r : Res) (h : LoadAll e 0 s s' r) : r = .ok ∨ r = .interrupt := loadAll_pds3 e hs hd h

/-- **C18 (names).** Over any history of loads, reloads, lookups, deletions and loading everything, the list
of object names only grows, by names it did not have, appended once each, in the order in which they were
found; a list without repetitions stays one. -/
theorem C18_names_only_grow (e : Env V) (s s' : State V) (ops : List Op) (h : Run e s ops s') :
    Grows s.index s'.index ∧ (s.index.Nodup → s'.index.Nodup) := by
  have key : Grows s.index s'.index := by
    induction h with
    | nil => exact Grows.refl _
    | @cons s _ _ _ _ h1 _ ih =>
      refine Grows.trans ?_ ih
      cases h1 with
      | load => exact (load_frame e _ _ _).1
      | @get name =>
        unfold get
        split
        · exact Grows.refl _
        · split
          · exact Grows.refl _
          · split
            · exact Grows.refl _
            · have := (load_frame e s name false).1
              generalize load e s name false = p at *
              obtain ⟨s', r⟩ := p
              cases r <;> exact this
      | del => exact Grows.refl _
      | all h => exact (loadAll_frame e h).1
  exact ⟨key, fun hn => Grows.nodup key hn⟩

/-- **C18 (nothing is lost).** Over any history without deletions, an object that is loaded stays loaded. -/
theorem C18_loaded_stays (e : Env V) (s s' : State V) (ops : List Op) (h : Run e s ops s')
    (hnd : ∀ o ∈ ops, ∀ n, o ≠ .del n) (n : Str) (hl : loaded e s n = true) : loaded e s' n = true := by
  induction h with
  | nil => exact hl
  | @cons s _ _ _ _ h1 _ ih =>
    refine ih (fun o ho => hnd o (List.mem_cons_of_mem _ ho)) ?_
    cases h1 with
    | load => exact loaded_mono e _ _ _ n hl
    | @get name =>
      unfold get
      split
      · exact hl
      · split
        · exact hl
        · split
          · exact hl
          · have := loaded_mono e s name false n hl
            generalize load e s name false = p at *
            obtain ⟨s', r⟩ := p
            cases r <;> exact this
    | @del name => exact absurd rfl (hnd (.del name) (by simp) name)
    | all h => exact (loadAll_frame e h).2.1 n hl

/-! ### C47: limits -/

/-- **C47 (limit).** A value a loader gives for another object silently replaces the value that object already
has, without `reload`. -/
theorem C47_side_results_replace (e : Env V) (s : State V) (name other : Str) (hs : e.standard = .pds3)
    (hi : name ∈ s.index) (hn : loaded e s name = false) (hm : name ∈ s.mapped) (v w : V)
    (hask : e.ask s.asked name = .objs [(name, some v), (other, some w)]) :
    (load e s name false).1.attrs other = some (some w) ∧ (load e s name false).1.warned = s.warned := by
  have h := (C18_load_value e s name false hs hi (fun h => by rw [hn] at h; cases h) (.inl hm)).1 _ hask
  constructor
  · rw [h.2 other]
    by_cases hno : name = other
    · subst hno
      simp [given]
    · simp [given, hno]
  · rcases load_cases e s name false with ⟨_, h⟩ | ⟨_, _, h, _⟩ | ⟨_, _, ⟨_, h⟩ | ⟨h, _⟩⟩
    · exact absurd hi h
    · rw [hn] at h; cases h
    · rw [h]
      unfold locateThenLoad
      rw [if_pos hm]
      unfold loadPds3
      rw [hask]
      exact (addObjs_frame (tick s) _).2.2
    · exact absurd hs h

/-- **C47 (limit).** An object whose loader gives None cannot be got: every attempt asks the loader again and
raises AttributeError, although the name is in the list. -/
theorem C47_none_is_asked_again (e : Env V) (s : State V) (name : Str) (hs : e.standard = .pds3)
    (hi : name ∈ s.index) (hb : e.builtin name = false) (hn : s.attrs name = none) (hm : name ∈ s.mapped)
    (hask : ∀ k, GaveNothing e k name) :
    ∃ s', get e s name = (s', .err .attributeError) ∧ s'.asked = s.asked + 1 ∧ s'.attrs name = none ∧
      name ∈ s'.index ∧ name ∈ s'.mapped := by
  have hl : loaded e s name = false := by simp [loaded, hb, hn]
  have hload : load e s name false = loadPds3 e s name := by
    rcases load_cases e s name false with ⟨_, h⟩ | ⟨_, _, h, _⟩ | ⟨_, _, ⟨_, h⟩ | ⟨h, _⟩⟩
    · exact absurd hi h
    · rw [hl] at h; cases h
    · rw [h]; unfold locateThenLoad; rw [if_pos hm]
    · exact absurd hs h
  have hp : ∃ s', loadPds3 e s name = (s', .ok) ∧ s'.asked = s.asked + 1 ∧ s'.attrs name = none ∧
      name ∈ s'.index ∧ name ∈ s'.mapped := by
    unfold loadPds3
    rcases hask s.asked with h | ⟨l, h, hg⟩
    · rw [h]; exact ⟨_, rfl, rfl, hn, hi, hm⟩
    · rw [h]
      refine ⟨_, rfl, ?_, ?_, ?_, ?_⟩
      · rw [(addObjs_frame (tick s) l).2.1]; rfl
      · rw [addObjs_attrs, hg]; exact hn
      · exact Grows.mem (addObjs_index (tick s) l).1 hi
      · rw [(addObjs_frame (tick s) l).1]; exact hm
  obtain ⟨s', h1, h2, h3, h4, h5⟩ := hp
  refine ⟨s', ?_, h2, h3, h4, h5⟩
  unfold get
  simp only [hb, Bool.false_eq_true, if_false, hn]
  rw [if_neg (by simpa using hi), hload, h1]
  simp [h3]

/-- **C47 (limit).** A data object with the name of an attribute or method of `Data` is never loaded: getting it
gives the attribute, loading it says it is loaded already. -/
theorem C47_shadowed_names (e : Env V) (s : State V) (name : Str) (hi : name ∈ s.index) (hb : e.builtin name = true) :
    get e s name = (s, .internal) ∧ load e s name false = (s, .err .alreadyLoaded) ∧ name ∉ unloaded e s := by
  refine ⟨?_, ?_, ?_⟩
  · unfold get; rw [if_pos hb]
  · unfold load
    rw [if_neg (by simpa using hi), if_pos ⟨by simp [loaded, hb], rfl⟩]
  · simp [unloaded, loaded, hb]

/-- **C47 (limit).** In debug mode one missing file stops loading everything: objects after it are not
loaded. -/
theorem C47_debug_stops (e : Env V) (s : State V) (name : Str) (rest : List Str) (hs : e.standard = .pds3)
    (hd : e.debug = true) (hi : s.index = name :: rest) (hg : ignored name = false) (hl : loaded e s name = false)
    (hm : name ∉ s.mapped) (ht : e.target s.asked name = false) : LoadAll e 0 s s (.err .fileNotFound) := by
  have := (C18_missing_file e s name false hs (by simp [hi]) (fun h => by rw [hl] at h; cases h) hm ht).1 hd
  exact .stop (by simp [hi]) hg this (by intro h; cases h) (by intro h; cases h)

/-! ### examples -/

/-- a product with an image whose loader also gives a header, a table whose loader fails and a description -/
def exampleEnv : Env Nat where
  standard := .pds3
  debug := false
  builtin := fun n => n == c!"keys"
  target := fun _ _ => true
  ask := fun k n => if n = c!"IMAGE" then .objs [(c!"IMAGE", some k), (c!"HEADER", some 7)] else .fails .valueError
  metaget := fun _ => some 3

/-- before anything is loaded -/
def exampleState : State Nat where
  index := [c!"IMAGE", c!"TABLE", c!"TABLE_DESC"]
  attrs := fun _ => none
  mapped := []
  asked := 0
  warned := 0

example : (get exampleEnv exampleState c!"IMAGE").2 = .value (some 0) := by rfl
example : (get exampleEnv exampleState c!"IMAGE").1.index = [c!"IMAGE", c!"TABLE", c!"TABLE_DESC", c!"HEADER"] := by
  decide
example : (get exampleEnv exampleState c!"TABLE").2 = .value (some 3) := by rfl
example : ignored c!"TABLE_DESC" = true ∧ ignored c!"FILE_DESCRIPTION_12" = true ∧ ignored c!"IMAGE" = false := by
  decide
example : unloaded exampleEnv (load exampleEnv exampleState c!"IMAGE" false).1 = [c!"TABLE", c!"TABLE_DESC"] := by
  decide

end Verif.Load
