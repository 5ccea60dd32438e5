/-
C84: what is loaded from FITS files that are opened directly.
-/
import Verif.Props.Fits

namespace Verif.Fits
open Verif.Py Verif.Fits.Spec Verif.Load Verif.Load.Spec

variable {B : Type}

/-! ### any history -/

theorem loadAll_inv {V : Type} (e : Env V) (P : State V → Prop) (hl : ∀ s name, P s → P (load e s name false).1)
    {i : Nat} {s s' : State V} {r : Res} (h : LoadAll e i s s' r) (hs : P s) : P s' := by
  induction h with
  | done => exact hs
  | skip _ _ _ ih => exact ih hs
  | @next i s s1 s' r r1 name _ _ h1 _ _ ih =>
    have := hl s name hs
    rw [h1] at this
    exact ih this
  | @stop i s s1 r1 name _ _ h1 _ _ =>
    have := hl s name hs
    rw [h1] at this
    exact this

theorem get_state {V : Type} (e : Env V) (s : State V) (name : Str) :
    (get e s name).1 = s ∨ (get e s name).1 = (load e s name false).1 := by
  unfold Load.get
  split
  · exact .inl rfl
  · split
    · exact .inl rfl
    · split
      · exact .inl rfl
      · right
        generalize load e s name false = p
        obtain ⟨s', r⟩ := p
        cases r <;> rfl

theorem run_inv {V : Type} (e : Env V) (P : State V → Prop) {s s' : State V} {ops : List Op} (h : Run e s ops s')
    (hl : ∀ s name reload, P s → P (load e s name reload).1) (hd : ∀ s name, Op.del name ∈ ops → P s → P (del s name))
    (hs : P s) : P s' := by
  induction h with
  | nil => exact hs
  | @cons s s1 s2 o os h1 _ ih =>
    refine ih (fun s n ho hs => hd s n (List.mem_cons_of_mem _ ho) hs) ?_
    cases h1 with
    | load => exact hl _ _ _ hs
    | @get name =>
      rcases get_state e s name with h | h
      · rw [h]; exact hs
      · rw [h]; exact hl _ _ _ hs
    | del => exact hd _ _ (List.mem_cons_self ..) hs
    | all h => exact loadAll_inv e P (fun s n => hl s n false) h hs

/-! ### one request -/

theorem opened_good {f : File B} {s0 : State (Obj B)} (ho : openPrimary f = some s0) {i : Nat} {h : Hdu B}
    (hh : f.hdus[i]? = some h) : readHeader false h.cards = some (header h.cards) :=
  readHeader_good _ ((C84_names f).1.mp (by rw [ho]; rfl) h (List.mem_of_getElem? hh))

theorem opened_index {f : File B} {s0 : State (Obj B)} (ho : openPrimary f = some s0) (n : Str) :
    n ∈ s0.index ↔ ∃ i, ListedAs (names f) i n := by
  obtain ⟨_, order, h1, _, h3⟩ := (C84_names f).2 s0 ho
  constructor
  · intro hn
    obtain ⟨i, _, h⟩ := forall₂_left (List.Forall₂.flip h3) hn
    exact ⟨i, h⟩
  · rintro ⟨i, hi⟩
    have hl := listed_lt hi
    rw [List.length_map] at hl
    have : i ∈ order := h1.mem_iff.mpr (List.mem_range.mpr hl)
    obtain ⟨m, hm, h⟩ := forall₂_left h3 this
    rw [listed_unique hi h]
    exact hm

theorem headerOf_good {f : File B} {i : Nat} {h : Hdu B} (hg : readHeader false h.cards = some (header h.cards)) :
    headerOf f i h = header h.cards := by
  unfold headerOf
  rw [hg]

theorem bodyOf_eq (h : Hdu B) : bodyOf h = data h := by
  unfold bodyOf data
  cases h.body <;> rfl

theorem loadPrimary_listed {f : File B} {s0 : State (Obj B)} (ho : openPrimary f = some s0) (hc : Clean (names f))
    {i : Nat} {n : Str} {h : Hdu B} (hn : ListedAs (names f) i n) (hh : f.hdus[i]? = some h) :
    loadPrimary f n = .ok [(n ++ c!"_HEADER", .header (header h.cards)), (n, data h)] := by
  unfold loadPrimary
  rw [lastOf_unique (listed_mem hn) (fun j hj => hc.distinct j i n (hduMap_listed _ _ _ hj) hn)]
  simp only
  have : (contains n c!"HEADER" && !(names f).contains n) = false := by
    rw [Bool.and_eq_false_iff]
    by_cases hm : n ∈ names f
    · right; simp only [Bool.not_eq_false', List.contains_iff_mem]; exact hm
    · left
      rw [← Bool.not_eq_true, Datatypes.contains_iff]
      exact hc.numbered i n hn hm
  rw [this]
  unfold objects
  rw [hh]
  simp only [Bool.false_eq_true, if_false]
  rw [headerOf_good (opened_good ho hh), bodyOf_eq]

theorem loadPrimary_other {f : File B} {n : Str} (hn : ∀ i, ¬ ListedAs (names f) i n) : loadPrimary f n = .error .keyError := by
  unfold loadPrimary
  rw [lastOf_none (fun i hi => hn i (hduMap_listed _ _ _ hi))]

/-- what is asked for is one of the HDUs that are listed, or there is an error -/
theorem loadPrimary_cases {f : File B} {s0 : State (Obj B)} (ho : openPrimary f = some s0) (hc : Clean (names f)) (n : Str) :
    (∃ i h, ListedAs (names f) i n ∧ f.hdus[i]? = some h ∧
      loadPrimary f n = .ok [(n ++ c!"_HEADER", .header (header h.cards)), (n, data h)]) ∨
    loadPrimary f n = .error .keyError := by
  by_cases hl : ∃ i, ListedAs (names f) i n
  · obtain ⟨i, hi⟩ := hl
    have hlt := listed_lt hi
    rw [List.length_map] at hlt
    exact .inl ⟨i, f.hdus[i], hi, List.getElem?_eq_getElem hlt, loadPrimary_listed ho hc hi (List.getElem?_eq_getElem hlt)⟩
  · exact .inr (loadPrimary_other (fun i hi => hl ⟨i, hi⟩))

theorem addObjs_names {V : Type} (s : State V) (l : List (Str × Option V)) (n : Str) (h : n ∈ (addObjs s l).index) :
    n ∈ s.index ∨ ∃ v, (n, v) ∈ l := by
  induction l generalizing s with
  | nil => exact .inl h
  | cons q l ih =>
    obtain ⟨k, v⟩ := q
    cases v with
    | none =>
      rcases ih s h with h | ⟨v, h⟩
      · exact .inl h
      · exact .inr ⟨v, List.mem_cons_of_mem _ h⟩
    | some v =>
      rcases ih _ h with h | ⟨v, h⟩
      · split at h
        · exact .inl h
        · simp only [setAttr, List.mem_append, List.mem_singleton] at h
          rcases h with h | rfl
          · exact .inl h
          · exact .inr ⟨some v, List.mem_cons_self ..⟩
      · exact .inr ⟨v, List.mem_cons_of_mem _ h⟩

/-- one request: nothing changes, or both objects of an HDU are set -/
theorem load_effect {f : File B} {s0 : State (Obj B)} (ho : openPrimary f = some s0) (hc : Clean (names f))
    (debug : Bool) (builtin : Str → Bool) (meta' : Str → Option (Obj B)) (s : State (Obj B)) (name : Str) (reload : Bool) :
    ((load (env f debug builtin meta') s name reload).1.attrs = s.attrs ∧
      (load (env f debug builtin meta') s name reload).1.index = s.index ∧
      (load (env f debug builtin meta') s name reload).2 ≠ .ok ∧
      (name ∈ s.index → loaded (env f debug builtin meta') s name = false → ∀ i, ¬ ListedAs (names f) i name)) ∨
    ∃ i h, ListedAs (names f) i name ∧ f.hdus[i]? = some h ∧
      (load (env f debug builtin meta') s name reload).2 = .ok ∧
      (∀ n, (load (env f debug builtin meta') s name reload).1.attrs n =
        if n = name then some (some (data h)) else if n = name ++ c!"_HEADER" then some (some (.header (header h.cards)))
        else s.attrs n) ∧
      (∀ n, n ∈ (load (env f debug builtin meta') s name reload).1.index → n ∈ s.index ∨ n = name ∨ n = name ++ c!"_HEADER") := by
  rcases load_cases (env f debug builtin meta') s name reload with ⟨h, h'⟩ | ⟨h, h', h'', _⟩ | ⟨hi, hr, ⟨h, _⟩ | ⟨_, h⟩⟩
  · rw [h]; exact .inl ⟨rfl, rfl, by simp, fun hx => absurd hx h'⟩
  · rw [h]; exact .inl ⟨rfl, rfl, by simp, fun _ hx => by rw [hx] at h''; cases h''⟩
  · exact absurd h (by simp [env])
  · have hpds : (env f debug builtin meta').standard ≠ .pds3 := by simp [env]
    obtain ⟨H1, _, H3⟩ := C18_load_other (env f debug builtin meta') s name reload hpds hi hr
    rcases loadPrimary_cases ho hc name with ⟨i, x, hl, hx, hok⟩ | herr
    · right
      refine ⟨i, x, hl, hx, ?_⟩
      have hask : (env f debug builtin meta').ask s.asked name =
          .objs [(name ++ c!"_HEADER", some (.header (header x.cards))), (name, some (data x))] := by
        simp only [env, hok, outcome, List.map_cons, List.map_nil]
      obtain ⟨a, b⟩ := H1 _ hask
      refine ⟨a, ?_, ?_⟩
      · intro n
        rw [b n]
        have hne : name ++ c!"_HEADER" ≠ name := by
          intro h
          have := congrArg List.length h
          simp at this
        by_cases h1 : n = name
        · rw [if_pos h1, h1]
          rw [given_cons_other _ _ _ _ hne, given_cons_self]
          simp [given]
        · rw [if_neg h1]
          by_cases h2 : n = name ++ c!"_HEADER"
          · rw [if_pos h2, h2, given_cons_self, given_cons_other _ _ _ _ (fun h => hne h.symm)]
            simp [given]
          · rw [if_neg h2, given_cons_other _ _ _ _ (fun h => h2 h.symm), given_cons_other _ _ _ _ (fun h => h1 h.symm)]
            simp [given]
      · intro n hn
        rw [h] at hn
        unfold loadOther at hn
        rw [hask] at hn
        rcases addObjs_names _ _ _ hn with hn | ⟨v, hn⟩
        · exact .inl hn
        · right
          simp only [List.mem_cons, Prod.mk.injEq, List.not_mem_nil, or_false] at hn
          tauto
    · left
      have hask : (env f debug builtin meta').ask s.asked name = .fails .keyError := by
        simp only [env, herr, outcome]
      obtain ⟨a, b, c⟩ := H3 _ hask
      refine ⟨b, c, by rw [a]; simp, fun _ _ j hj => ?_⟩
      have hlt := listed_lt hj
      rw [List.length_map] at hlt
      rw [loadPrimary_listed ho hc hj (List.getElem?_eq_getElem hlt)] at herr
      cases herr

/-! ### invariants -/

/-- what is set is right -/
structure Right (f : File B) (s : State (Obj B)) : Prop where
  body : ∀ i n h, ListedAs (names f) i n → f.hdus[i]? = some h → s.attrs n = none ∨ s.attrs n = some (some (data h))
  head : ∀ i n h, ListedAs (names f) i n → f.hdus[i]? = some h →
    s.attrs (n ++ c!"_HEADER") = none ∨ s.attrs (n ++ c!"_HEADER") = some (some (.header (header h.cards)))
  index : ∀ i n, ListedAs (names f) i n → n ∈ s.index
  known : ∀ n ∈ s.index, (∃ i, ListedAs (names f) i n) ∨ ∃ i m, ListedAs (names f) i m ∧ n = m ++ c!"_HEADER"

theorem right_open {f : File B} {s0 : State (Obj B)} (ho : openPrimary f = some s0) : Right f s0 := by
  have h0 := ((C84_names f).2 s0 ho).1
  exact ⟨fun i n h _ _ => .inl (h0 _), fun i n h _ _ => .inl (h0 _), fun i n hi => (opened_index ho n).mpr ⟨i, hi⟩,
    fun n hn => .inl ((opened_index ho n).mp hn)⟩

theorem right_load {f : File B} {s0 : State (Obj B)} (ho : openPrimary f = some s0) (hc : Clean (names f))
    (debug : Bool) (builtin : Str → Bool) (meta' : Str → Option (Obj B)) (s : State (Obj B)) (name : Str) (reload : Bool)
    (hs : Right f s) : Right f (load (env f debug builtin meta') s name reload).1 := by
  have hg := (load_frame (env f debug builtin meta') s name reload).1
  rcases load_effect ho hc debug builtin meta' s name reload with ⟨h1, h2, _⟩ | ⟨j, x, hj, hx, _, h1, h2⟩
  · exact ⟨by rw [h1]; exact hs.body, by rw [h1]; exact hs.head, by rw [h2]; exact hs.index, by rw [h2]; exact hs.known⟩
  · refine ⟨?_, ?_, fun i n hi => Grows.mem hg (hs.index i n hi), ?_⟩
    · intro i n h hi hh
      rw [h1 n]
      by_cases hn : n = name
      · right
        rw [if_pos hn]
        subst hn
        have := hc.distinct i j n hi hj
        subst this
        rw [hh] at hx
        cases hx
        rfl
      · rw [if_neg hn, if_neg (hc.noHeader i j n name hi hj)]
        exact hs.body i n h hi hh
    · intro i n h hi hh
      rw [h1 _]
      rw [if_neg (fun hE => hc.noHeader j i name n hj hi hE.symm)]
      by_cases hn : n = name
      · right
        subst hn
        rw [if_pos rfl]
        have := hc.distinct i j n hi hj
        subst this
        rw [hh] at hx
        cases hx
        rfl
      · rw [if_neg (fun hE => hn (List.append_cancel_right hE))]
        exact hs.head i n h hi hh
    · intro n hn
      rcases h2 n hn with h | rfl | rfl
      · exact hs.known n h
      · exact .inl ⟨j, hj⟩
      · exact .inr ⟨j, name, hj, rfl⟩

theorem right_del {f : File B} {s : State (Obj B)} (hs : Right f s) (name : Str) : Right f (del s name) := by
  refine ⟨?_, ?_, hs.index, hs.known⟩
  · intro i n h hi hh
    simp only [del]
    split
    · exact .inl rfl
    · exact hs.body i n h hi hh
  · intro i n h hi hh
    simp only [del]
    split
    · exact .inl rfl
    · exact hs.head i n h hi hh

theorem right_run {f : File B} {s0 s : State (Obj B)} (ho : openPrimary f = some s0) (hc : Clean (names f))
    {debug : Bool} {builtin : Str → Bool} {meta' : Str → Option (Obj B)} {ops : List Op}
    (hr : Run (env f debug builtin meta') s0 ops s) : Right f s :=
  run_inv _ (Right f) hr (fun s n r hs => right_load ho hc debug builtin meta' s n r hs) (fun _ n _ hs => right_del hs n)
    (right_open ho)

/-- the header is set whenever the data are -/
def Both (n : Str) (s : State (Obj B)) : Prop := (s.attrs n).isSome → (s.attrs (n ++ c!"_HEADER")).isSome

theorem both_run {f : File B} {s0 s : State (Obj B)} (ho : openPrimary f = some s0) (hc : Clean (names f))
    {debug : Bool} {builtin : Str → Bool} {meta' : Str → Option (Obj B)} {ops : List Op}
    (hr : Run (env f debug builtin meta') s0 ops s) {i : Nat} {n : Str} (hn : ListedAs (names f) i n)
    (hd : Op.del (n ++ c!"_HEADER") ∉ ops) : Both n s := by
  refine run_inv _ (Both n) hr ?_ ?_ ?_
  · intro s name reload hs
    rcases load_effect ho hc debug builtin meta' s name reload with ⟨h1, _⟩ | ⟨j, x, hj, hx, _, h1, _⟩
    · unfold Both; rw [h1]; exact hs
    · unfold Both
      rw [h1 n, h1 (n ++ c!"_HEADER")]
      by_cases h2 : n = name
      · intro _
        rw [if_neg (fun hE => hc.noHeader j i name n hj hn hE.symm), if_pos (by rw [h2])]
        rfl
      · rw [if_neg h2, if_neg (hc.noHeader i j n name hn hj)]
        intro h
        rw [if_neg (fun hE => hc.noHeader j i name n hj hn hE.symm), if_neg (fun hE => h2 (List.append_cancel_right hE))]
        exact hs h
  · intro s name ho hs h
    simp only [del] at h ⊢
    split at h
    · cases h
    · split
      · next hE => rw [hE] at hd; exact absurd ho hd
      · exact hs h
  · intro h
    rw [((C84_names f).2 s0 ho).1 n] at h
    cases h

/-- **C84 (values).** A FITS file that was opened directly, with names that do not clash: whatever has been loaded, looked up, reloaded
or deleted before, asking for an HDU by the name it is listed by gives its data, and an empty array if it has none. Then its header
can be had under this name followed by "_HEADER", unless that has been deleted. -/
theorem C84_get (f : File B) (s0 : State (Obj B)) (ho : openPrimary f = some s0) (hc : Clean (names f))
    (debug : Bool) (builtin : Str → Bool) (meta' : Str → Option (Obj B)) (ops : List Op) (s : State (Obj B))
    (hr : Run (env f debug builtin meta') s0 ops s) (i : Nat) (n : Str) (h : Hdu B) (hn : ListedAs (names f) i n)
    (hh : f.hdus[i]? = some h) (hb : builtin n = false) :
    ∃ s', get (env f debug builtin meta') s n = (s', .value (some (data h))) ∧
      (builtin (n ++ c!"_HEADER") = false → Op.del (n ++ c!"_HEADER") ∉ ops →
        get (env f debug builtin meta') s' (n ++ c!"_HEADER") = (s', .value (some (.header (header h.cards))))) := by
  have hR := right_run ho hc hr
  rcases hR.body i n h hn hh with h0 | h0
  · have hidx := hR.index i n hn
    have hnl : loaded (env f debug builtin meta') s n = false := by
      unfold loaded
      rw [h0]
      simp only [env, hb]
      rfl
    rcases load_effect ho hc debug builtin meta' s n false with ⟨_, _, _, hx⟩ | ⟨j, x, hj, hx, hok, h1, _⟩
    · exact absurd hn (hx hidx hnl i)
    · have := hc.distinct i j n hn hj
      subst this
      rw [hh] at hx
      cases hx
      refine ⟨(load (env f debug builtin meta') s n false).1, C18_get_loads _ s n hb hidx h0 _ hok (by rw [h1 n, if_pos rfl]), ?_⟩
      intro hb' _
      unfold Load.get
      rw [if_neg (by simp [env, hb'])]
      rw [h1 (n ++ c!"_HEADER")]
      have hne : n ++ c!"_HEADER" ≠ n := by
        intro h
        have := congrArg List.length h
        simp at this
      rw [if_neg hne, if_pos rfl]
  · refine ⟨s, ?_, ?_⟩
    · unfold Load.get
      rw [if_neg (by simp [env, hb]), h0]
    · intro hb' hd
      have := both_run ho hc hr hn hd (by rw [h0]; rfl)
      rcases hR.head i n h hn hh with h2 | h2
      · rw [h2] at this; cases this
      · unfold Load.get
        rw [if_neg (by simp [env, hb']), h2]

/-- every name is of an HDU or is set -/
def Settled (f : File B) (s : State (Obj B)) : Prop := ∀ n ∈ s.index, (∃ i, ListedAs (names f) i n) ∨ (s.attrs n).isSome

theorem settled_load {f : File B} {s0 : State (Obj B)} (ho : openPrimary f = some s0) (hc : Clean (names f))
    (debug : Bool) (builtin : Str → Bool) (meta' : Str → Option (Obj B)) (s : State (Obj B)) (name : Str) (reload : Bool)
    (hs : Settled f s) : Settled f (load (env f debug builtin meta') s name reload).1 := by
  intro n hn
  rcases load_effect ho hc debug builtin meta' s name reload with ⟨h1, h2, _⟩ | ⟨j, x, hj, hx, _, h1, h2⟩
  · rw [h1]; rw [h2] at hn; exact hs n hn
  · rw [h1 n]
    rcases h2 n hn with h | rfl | rfl
    · rcases hs n h with h | h
      · exact .inl h
      · right
        split
        · rfl
        · split
          · rfl
          · exact h
    · exact .inl ⟨j, hj⟩
    · right
      split
      · rfl
      · rw [if_pos rfl]; rfl

theorem loadAll_ok {f : File B} {s0 : State (Obj B)} (ho : openPrimary f = some s0) (hc : Clean (names f))
    (debug : Bool) (builtin : Str → Bool) (meta' : Str → Option (Obj B)) {i : Nat} {s s' : State (Obj B)} {r : Res}
    (h : LoadAll (env f debug builtin meta') i s s' r) (hs : Settled f s) : r = .ok := by
  induction h with
  | done => rfl
  | skip _ _ _ ih => exact ih hs
  | @next i s s1 s' r r1 name _ _ h1 _ _ ih =>
    have := settled_load ho hc debug builtin meta' s name false hs
    rw [h1] at this
    exact ih this
  | @stop i s s1 r1 name hi _ h1 h2 h3 =>
    exfalso
    have hm := List.mem_of_getElem? hi
    have hr1 : (load (env f debug builtin meta') s name false).2 = r1 := by rw [h1]
    rcases load_effect ho hc debug builtin meta' s name false with ⟨_, _, _, hx⟩ | ⟨j, x, hj, hx, hok, _⟩
    · cases hl : loaded (env f debug builtin meta') s name with
      | true =>
        rcases load_cases (env f debug builtin meta') s name false with ⟨_, h⟩ | ⟨h, _⟩ | ⟨_, h, _⟩
        · exact h hm
        · rw [h] at hr1; exact h3 hr1.symm
        · cases h hl
      | false =>
        rcases hs name hm with ⟨j, hj⟩ | h
        · exact hx hm hl j hj
        · unfold loaded at hl
          rw [h] at hl
          simp at hl
    · rw [hok] at hr1; exact h2 hr1.symm

/-- **C84 (load all).** After any history without deletions, loading everything succeeds; then the data and the header of
every HDU are loaded, but for those whose names are left out on purpose. -/
theorem C84_load_all (f : File B) (s0 : State (Obj B)) (ho : openPrimary f = some s0) (hc : Clean (names f))
    (debug : Bool) (builtin : Str → Bool) (meta' : Str → Option (Obj B)) (ops : List Op) (s : State (Obj B))
    (hr : Run (env f debug builtin meta') s0 ops s) (hd : ∀ n, Op.del n ∉ ops) (s' : State (Obj B)) (r : Res)
    (ha : LoadAll (env f debug builtin meta') 0 s s' r) :
    r = .ok ∧ ∀ i n h, ListedAs (names f) i n → f.hdus[i]? = some h → builtin n = false → ignored n = false →
      s'.attrs n = some (some (data h)) ∧ s'.attrs (n ++ c!"_HEADER") = some (some (.header (header h.cards))) := by
  have hset : Settled f s := by
    refine run_inv _ (Settled f) hr (fun s n r hs => settled_load ho hc debug builtin meta' s n r hs) ?_ ?_
    · intro s n h; exact absurd h (hd n)
    · intro n hn; exact .inl ((opened_index ho n).mp hn)
  have hok := loadAll_ok ho hc debug builtin meta' ha hset
  subst hok
  refine ⟨rfl, ?_⟩
  intro i n h hn hh hb hg
  have hR : Right f s' := loadAll_inv _ (Right f) (fun s n hs => right_load ho hc debug builtin meta' s n false hs) ha (right_run ho hc hr)
  have hr' : Run (env f debug builtin meta') s (Op.all :: []) s' := .cons (.all ha) .nil
  have happ : ∀ {a b c : State (Obj B)} {o1 o2 : List Op}, Run (env f debug builtin meta') a o1 b →
      Run (env f debug builtin meta') b o2 c → Run (env f debug builtin meta') a (o1 ++ o2) c := by
    intro a b c o1 o2 h1 h2
    induction h1 with
    | nil => exact h2
    | cons hs _ ih => exact .cons hs (ih h2)
  have hB := both_run ho hc (happ hr hr') hn (by
    simp only [List.mem_append, List.mem_singleton, not_or]
    exact ⟨hd _, by simp⟩)
  have hload : loaded (env f debug builtin meta') s' n = true := by
    rcases C18_load_all_complete (env f debug builtin meta') (by
      intro k m
      simp only [env]
      rcases loadPrimary_cases ho hc m with ⟨_, _, _, _, h⟩ | h <;> rw [h] <;> simp [outcome]) s s' ha n (hR.index i n hn) hg with
      h1 | ⟨k, _, _, h1⟩
    · exact h1
    · exfalso
      unfold GaveNothing at h1
      simp only [env, loadPrimary_listed ho hc hn hh, outcome] at h1
      rcases h1 with h1 | ⟨l, h1, h2⟩
      · cases h1
      · simp only [Outcome.objs.injEq] at h1
        subst h1
        have hne : n ++ c!"_HEADER" ≠ n := by
          intro h
          have := congrArg List.length h
          simp at this
        simp only [List.map_cons, List.map_nil] at h2
        rw [given_cons_other _ _ _ _ hne, given_cons_self] at h2
        simp [given] at h2
  have hsome : (s'.attrs n).isSome := by
    unfold loaded at hload
    simpa [env, hb] using hload
  constructor
  · rcases hR.body i n h hn hh with h1 | h1
    · rw [h1] at hsome; cases hsome
    · exact h1
  · have := hB hsome
    rcases hR.head i n h hn hh with h1 | h1
    · rw [h1] at this; cases this
    · exact h1

end Verif.Fits
