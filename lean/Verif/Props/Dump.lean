/-
Dumping browse products (C123, C124): which files `dump_browse` writes, what is in them, and what becomes of the loaded objects.
-/
import Verif.Spec.Dump
import Verif.Props.Browse
import Verif.Props.Pds4Table

namespace Verif.Dump
open Verif.Py Verif.Browse Verif.Browse.Spec Verif.Dump.Spec

variable {A I : Type}

theorem begins_iff (E : Env A I) (name b : Str) : Begins E name b ↔ b = outfile E name := by
  unfold outfile
  constructor
  · rintro (h | h)
    · rw [if_pos h]
    · rw [if_neg h]
  · rintro rfl
    split
    case isTrue h => exact .here h
    case isFalse h => exact .there h

/-! ### bands -/

theorem middle_even (n : Nat) (hn : 1 ≤ n) : ∃ k, k < n ∧ pyIndex n (roundEven ((n : ℚ) / 2)) = .ok k ∧
    (n = 2 * k ∨ k % 2 = 0 ∧ (n = 2 * k + 1 ∨ n + 1 = 2 * k)) := by
  obtain ⟨m, hm | hm⟩ : ∃ m : Nat, n = 2 * m ∨ n = 2 * m + 1 := ⟨n / 2, by omega⟩
  · have : roundEven ((n : ℚ) / 2) = m := by
      have : ((n : ℚ) / 2) = ((m : Int) : ℚ) := by rw [hm]; push_cast; ring
      rw [this, roundEven_int]
    rw [this]
    exact ⟨m, by omega, (pyIndex_spec n m m).2 ⟨by omega, .inl rfl⟩, .inl hm⟩
  · have hx : (n : ℚ) / 2 = (m : ℚ) + 1 / 2 := by rw [hm]; push_cast; ring
    have hfl : ⌊(m : ℚ) + 1 / 2⌋ = (m : Int) := by
      rw [Int.floor_eq_iff]
      push_cast
      constructor <;> linarith
    have : roundEven ((n : ℚ) / 2) = if (m : Int) % 2 = 0 then (m : Int) else m + 1 := by
      unfold roundEven
      rw [hx, hfl]
      push_cast
      rw [if_neg (by linarith), if_neg (by linarith)]
    rw [this]
    split
    case isTrue h => exact ⟨m, by omega, (pyIndex_spec n m m).2 ⟨by omega, .inl rfl⟩, .inr ⟨by omega, .inl hm⟩⟩
    case isFalse h =>
      exact ⟨m + 1, by omega, (pyIndex_spec n _ _).2 ⟨by omega, .inl (by push_cast; rfl)⟩, .inr ⟨by omega, .inr (by omega)⟩⟩

theorem middle_iff (n k : Nat) : pyIndex n (roundEven ((n : ℚ) / 2)) = .ok k ↔
    (n = 2 * k ∨ k % 2 = 0 ∧ (n = 2 * k + 1 ∨ n + 1 = 2 * k)) ∧ k < n := by
  rcases Nat.eq_zero_or_pos n with rfl | hn
  · constructor
    · intro h
      have := ((pyIndex_spec _ _ _).1 h).1
      omega
    · rintro ⟨-, h⟩
      omega
  · obtain ⟨k', h1, h2, h3⟩ := middle_even n hn
    rw [h2]
    constructor
    · intro h
      injection h with h
      subst h
      exact ⟨h3, h1⟩
    · rintro ⟨h, h'⟩
      have : k' = k := by omega
      rw [this]

theorem map_single (x : Except PyErr Nat) (s : Selection) : x.map Selection.single = .ok s ↔ ∃ k, x = .ok k ∧ s = .single k := by
  cases x with
  | error e => simp [Except.map]
  | ok k => simp [Except.map, eq_comm]

theorem singleBand_iff (n : Nat) (b : BandIx) (s : Selection) : singleBand n b = .ok s ↔
    ∃ k, s = .single k ∧ ((∃ i, b = .int i ∧ Names n i k) ∨
      (∀ i, b = .int i → ∀ j, ¬ Names n i j) ∧ (n = 2 * k ∨ k % 2 = 0 ∧ (n = 2 * k + 1 ∨ n + 1 = 2 * k)) ∧ k < n) := by
  have hmid : (pyIndex n (roundEven ((n : ℚ) / 2))).map Selection.single = .ok s ↔ ∃ k, s = .single k ∧
      (n = 2 * k ∨ k % 2 = 0 ∧ (n = 2 * k + 1 ∨ n + 1 = 2 * k)) ∧ k < n := by
    rw [map_single]
    constructor
    · rintro ⟨k, h, h'⟩
      exact ⟨k, h', (middle_iff n k).1 h⟩
    · rintro ⟨k, h, h'⟩
      exact ⟨k, (middle_iff n k).2 h', h⟩
  cases b with
  | int i =>
    cases hi : pyIndex n i with
    | ok j =>
      have hN := (pyIndex_spec n i j).1 hi
      simp only [singleBand, hi]
      constructor
      · intro h
        injection h with h
        exact ⟨j, h.symm, .inl ⟨i, rfl, hN⟩⟩
      · rintro ⟨k, rfl, ⟨i', h, hk⟩ | ⟨h, -⟩⟩
        · injection h with h
          subst h
          have := (pyIndex_spec n i k).2 hk
          rw [hi] at this
          injection this with this
          rw [this]
        · exact (h i rfl j hN).elim
    | error e =>
      have hno : ∀ j, ¬ Names n i j := by
        intro j hj
        rw [(pyIndex_spec n i j).2 hj] at hi
        cases hi
      simp only [singleBand, hi, hmid]
      constructor
      · rintro ⟨k, h, h'⟩
        exact ⟨k, h, .inr ⟨(by intro i' h; injection h with h; subst h; exact hno), h'⟩⟩
      · rintro ⟨k, h, ⟨i', h', hk⟩ | ⟨-, h'⟩⟩
        · injection h' with h'
          subst h'
          exact (hno k hk).elim
        · exact ⟨k, h, h'⟩
  | none | burst | other =>
    simp only [singleBand, hmid]
    constructor
    · rintro ⟨k, h, h'⟩
      exact ⟨k, h, .inr ⟨(by intro i h; cases h), h'⟩⟩
    · rintro ⟨k, h, ⟨i', h', hk⟩ | ⟨-, h'⟩⟩
      · cases h'
      · exact ⟨k, h, h'⟩

theorem rgbBands_iff (n : Nat) (i j k : Int) (s : Selection) : rgbBands n i j k = .ok s ↔
    ∃ r g b, s = .rgb r g b ∧ Names n i r ∧ Names n j g ∧ Names n k b := by
  unfold rgbBands
  constructor
  · intro h
    cases hi : pyIndex n i with
    | error e => rw [hi] at h; cases h
    | ok r =>
      cases hj : pyIndex n j with
      | error e => rw [hi, hj] at h; cases h
      | ok g =>
        cases hk : pyIndex n k with
        | error e => rw [hi, hj, hk] at h; cases h
        | ok b =>
          rw [hi, hj, hk] at h
          simp only [bind, Except.bind] at h
          injection h with h
          exact ⟨r, g, b, h.symm, (pyIndex_spec _ _ _).1 hi, (pyIndex_spec _ _ _).1 hj, (pyIndex_spec _ _ _).1 hk⟩
  · rintro ⟨r, g, b, rfl, h1, h2, h3⟩
    rw [(pyIndex_spec _ _ _).2 h1, (pyIndex_spec _ _ _).2 h2, (pyIndex_spec _ _ _).2 h3]
    rfl

/-- the part of an array that is drawn -/
def partOf : Selection → Option Part
  | .single k => some (.band k)
  | .rgb r g b => some (.rgb r g b)
  | .burst _ => none

theorem chosen_iff (o : Options) (n : Nat) (p : Part) :
    Chosen o n p ↔ ∃ s, selectBands n o.bandIx o.overrideRgba o.rgbChannels = .ok s ∧ partOf s = some p := by
  constructor
  · rintro (⟨h, h1, h2, h3⟩ | ⟨h, h1, h2⟩ | ⟨h, h1, h2, h3⟩ | ⟨h, h1, h2, h3, h4, h5⟩)
    · exact ⟨.rgb _ _ _, by rw [h]; exact (rgbBands_iff _ _ _ _ _).2 ⟨_, _, _, rfl, h1, h2, h3⟩, rfl⟩
    · exact ⟨.rgb 0 1 2, by rw [h]; simp only [selectBands]; rw [if_neg (by simp [h1, h2])], rfl⟩
    · refine ⟨.single _, ?_, rfl⟩
      rw [h]
      simp only [selectBands]
      rw [if_pos h1, h2]
      exact (singleBand_iff _ _ _).2 ⟨_, rfl, .inl ⟨_, rfl, h3⟩⟩
    · refine ⟨.single _, ?_, rfl⟩
      rw [h]
      simp only [selectBands]
      rw [if_pos h1]
      have := (singleBand_iff n o.bandIx _).2 ⟨_, rfl, .inr ⟨h3, h4, h5⟩⟩
      cases hb : o.bandIx with
      | burst => exact (h2 hb).elim
      | none | int i | other => rw [hb] at this; exact this
  · rintro ⟨s, h, hp⟩
    unfold selectBands at h
    cases hc : o.rgbChannels with
    | some c =>
      rw [hc] at h
      obtain ⟨r, g, b, rfl, h1, h2, h3⟩ := (rgbBands_iff _ _ _ _ _).1 h
      injection hp with hp
      subst hp
      exact .channels (i := c.1) (j := c.2.1) (k := c.2.2) hc h1 h2 h3
    | none =>
      rw [hc] at h
      simp only at h
      split at h
      case isTrue hn =>
        have key : o.bandIx ≠ .burst → singleBand n o.bandIx = .ok s → Chosen o n p := by
          intro hb h
          obtain ⟨k, rfl, ⟨i, hi, hN⟩ | ⟨h1, h2, h3⟩⟩ := (singleBand_iff _ _ _).1 h
          · injection hp with hp
            subst hp
            exact .asked hc hn hi hN
          · injection hp with hp
            subst hp
            exact .middle hc hn hb h1 h2 h3
        cases hb : o.bandIx with
        | burst =>
          rw [hb] at h
          injection h with h
          subst h
          cases hp
        | none | int i | other => 
          rw [hb] at h key
          exact key (by simp) h
      case isFalse hn =>
        injection h with h
        subst h
        injection hp with hp
        subst hp
        have h3 : n = 3 ∨ n = 4 := by
          by_contra h; exact hn (.inl h)
        refine .color hc h3 ?_
        cases ho : o.overrideRgba with
        | false => rfl
        | true => exact (hn (.inr ho)).elim

theorem burst_iff (o : Options) (n : Nat) (ks : List Nat) :
    selectBands n o.bandIx o.overrideRgba o.rgbChannels = .ok (.burst ks) ↔ Burst o n ∧ ks = List.range n := by
  constructor
  · intro h
    unfold selectBands at h
    cases hc : o.rgbChannels with
    | some c =>
      rw [hc] at h
      obtain ⟨r, g, b, h1, -⟩ := (rgbBands_iff _ _ _ _ _).1 h
      cases h1
    | none =>
      rw [hc] at h
      simp only at h
      split at h
      case isTrue hn =>
        cases hb : o.bandIx with
        | burst =>
          rw [hb] at h
          injection h with h
          injection h with h
          exact ⟨⟨hc, hn, hb⟩, h.symm⟩
        | none | int i | other =>
          rw [hb] at h
          obtain ⟨k, h, -⟩ := (singleBand_iff _ _ _).1 h
          cases h
      case isFalse hn => cases h
  · rintro ⟨⟨h1, h2, h3⟩, rfl⟩
    rw [h1, h3]
    simp only [selectBands]
    rw [if_pos h2]

/-! ### files -/

theorem map_ok_inj {α : Type} (xs ys : List α) (h : xs.map (Except.ok (ε := PyErr)) = ys.map .ok) : xs = ys :=
  List.map_injective_iff.2 (fun _ _ h => by injection h) h

theorem drawing_ok (E : Env A I) (o : Options) (purge : Bool) (base : Str) (part : Part) (a : A) (f : Str × Content A I) :
    drawing E o purge base part a = .ok f ↔ ∃ i, E.render part purge a = .ok i ∧ f = (base ++ '.' :: o.format, .picture i) := by
  unfold drawing
  cases h : E.render part purge a with
  | error e => simp
  | ok i => simp [eq_comm]

theorem single_ok {α : Type} (x : Except PyErr α) (fs : List α) : [x] = fs.map .ok ↔ ∃ f, x = .ok f ∧ fs = [f] := by
  cases fs with
  | nil => simp
  | cons f fs =>
    simp only [List.map_cons, List.cons.injEq]
    constructor
    · rintro ⟨h, h'⟩
      refine ⟨f, h, rfl, ?_⟩
      cases fs with
      | nil => rfl
      | cons g gs => cases h'
    · rintro ⟨f', h, rfl, rfl⟩
      exact ⟨h, rfl⟩

theorem zipIdx_range (n : Nat) : (List.range n).zipIdx = (List.range n).map (fun k => (k, k)) := by
  apply List.ext_getElem
  · simp
  · intro i h1 h2
    simp

theorem map_ok_iff {α β : Type} (xs : List α) (g : α → Except PyErr β) (fs : List β) :
    xs.map g = fs.map .ok ↔ List.Forall₂ (fun x f => g x = .ok f) xs fs := by
  induction xs generalizing fs with
  | nil => cases fs <;> simp
  | cons x xs ih =>
    cases fs with
    | nil => simp
    | cons f fs => simp [ih]

theorem browsify_iff (E : Env A I) (o : Options) (purge : Bool) (base : Str) (item : Item A) (fs : List (Str × Content A I)) :
    browsify E o purge base item = fs.map .ok ↔ Files E o purge base item fs := by
  cases item with
  | recarray flat a =>
    cases flat with
    | true =>
      simp only [browsify, single_ok]
      constructor
      · rintro ⟨f, h, rfl⟩
        injection h with h
        subst h
        exact .records
      · rintro ⟨⟩
        exact ⟨_, rfl, rfl⟩
    | false =>
      simp only [browsify, single_ok]
      constructor
      · rintro ⟨f, h, rfl⟩
        injection h with h
        subst h
        exact .nested
      · rintro ⟨⟩
        exact ⟨_, rfl, rfl⟩
  | frame rows a =>
    simp only [browsify, single_ok]
    constructor
    · rintro ⟨f, h, rfl⟩
      injection h with h
      subst h
      split
      case isTrue h => subst h; exact .row
      case isFalse h => exact .table h
    · intro h
      cases h with
      | table h => exact ⟨_, rfl, by rw [if_neg h]⟩
      | row => exact ⟨_, rfl, rfl⟩
  | none =>
    simp only [browsify]
    constructor
    · intro h
      have : fs = [] := by cases fs with | nil => rfl | cons f fs => cases h
      subst this
      exact .nothing
    · rintro ⟨⟩
      rfl
  | xml a =>
    simp only [browsify, single_ok]
    constructor
    · rintro ⟨f, h, rfl⟩
      injection h with h
      subst h
      exact .xml
    · rintro ⟨⟩
      exact ⟨_, rfl, rfl⟩
  | other a =>
    simp only [browsify, single_ok]
    constructor
    · rintro ⟨f, h, rfl⟩
      injection h with h
      subst h
      exact .text
    · rintro ⟨⟩
      exact ⟨_, rfl, rfl⟩
  | array p dims a =>
    simp only [browsify]
    by_cases h1 : dims.length = 1
    · rw [if_pos h1, single_ok]
      obtain ⟨n, rfl⟩ := List.length_eq_one_iff.1 h1
      constructor
      · rintro ⟨f, h, rfl⟩
        injection h with h
        subst h
        exact .column
      · intro h
        cases h with
        | column => exact ⟨_, rfl, rfl⟩
        | picture h => exact (h rfl).elim
        | bands h => cases h
        | burst h => cases h
    · rw [if_neg h1]
      unfold browsifyArray
      by_cases h3 : dims.length = 3
      · rw [if_pos h3]
        cases hn : dims[o.sliceAxis]? with
        | none =>
          simp only [single_ok]
          constructor
          · rintro ⟨f, h, -⟩
            cases h
          · intro h
            cases h with
            | column => exact (h1 rfl).elim
            | picture h h' => exact (h' h3).elim
            | bands h h' => rw [hn] at h'; cases h'
            | burst h h' => rw [hn] at h'; cases h'
        | some n =>
          simp only
          cases hs : selectBands n o.bandIx o.overrideRgba o.rgbChannels with
          | error e =>
            simp only [single_ok]
            constructor
            · rintro ⟨f, h, -⟩
              cases h
            · intro h
              cases h with
              | column => exact (h1 rfl).elim
              | picture h h' => exact (h' h3).elim
              | bands h h' hc =>
                rw [hn] at h'
                injection h' with h'
                subst h'
                obtain ⟨s, hs', -⟩ := (chosen_iff _ _ _).1 hc
                rw [hs] at hs'
                cases hs'
              | burst h h' hb =>
                rw [hn] at h'
                injection h' with h'
                subst h'
                rw [(burst_iff _ _ _).2 ⟨hb, rfl⟩] at hs
                cases hs
          | ok s =>
            have key : ∀ part, partOf s = some part → ([drawing E o purge base part a] = fs.map .ok ↔ Files E o purge base (.array p dims a) fs) := by
              intro part hpart
              rw [single_ok]
              constructor
              · rintro ⟨f, h, rfl⟩
                obtain ⟨i, hi, rfl⟩ := (drawing_ok ..).1 h
                exact .bands h3 hn ((chosen_iff _ _ _).2 ⟨s, hs, hpart⟩) hi
              · intro h
                cases h with
                | column => exact (h1 rfl).elim
                | picture h h' => exact (h' h3).elim
                | bands h h' hc hr =>
                  rw [hn] at h'
                  injection h' with h'
                  subst h'
                  obtain ⟨s', hs', hp'⟩ := (chosen_iff _ _ _).1 hc
                  rw [hs] at hs'
                  injection hs' with hs'
                  subst hs'
                  rw [hpart] at hp'
                  injection hp' with hp'
                  subst hp'
                  exact ⟨_, (drawing_ok ..).2 ⟨_, hr, rfl⟩, rfl⟩
                | burst h h' hb =>
                  rw [hn] at h'
                  injection h' with h'
                  subst h'
                  rw [(burst_iff _ _ _).2 ⟨hb, rfl⟩] at hs
                  injection hs with hs
                  subst hs
                  cases hpart
            cases s with
            | single k => exact key _ rfl
            | rgb r g b => exact key _ rfl
            | burst ks =>
              obtain ⟨hb, rfl⟩ := (burst_iff _ _ _).1 hs
              simp only [zipIdx_range, List.map_map]
              constructor
              · intro h
                rw [map_ok_iff] at h
                have hlen := h.length_eq
                rw [List.length_range] at hlen
                have hall : ∀ k : Fin n, ∃ i, E.render (.band k) purge a = .ok i ∧
                    fs[k.val]? = some (base ++ '_' :: natStr k ++ '.' :: o.format, .picture i) := by
                  intro k
                  have := (List.forall₂_iff_get.1 h).2 k (by simp) (by omega)
                  simp only [List.get_eq_getElem, List.getElem_range, Function.comp] at this
                  obtain ⟨i, hi, hf⟩ := (drawing_ok ..).1 this
                  exact ⟨i, hi, by rw [List.getElem?_eq_getElem (by omega), hf]⟩
                choose i hi hf using hall
                have : fs = (List.ofFn i).zipIdx.map (fun e => (base ++ '_' :: natStr e.2 ++ '.' :: o.format, .picture e.1)) := by
                  apply List.ext_getElem?
                  intro k
                  by_cases hk : k < n
                  · rw [hf ⟨k, hk⟩]
                    simp [hk]
                  · rw [List.getElem?_eq_none (by omega), List.getElem?_eq_none (by simp; omega)]
                rw [this]
                refine .burst h3 hn hb (by simp) ?_
                intro k x hx
                by_cases hk : k < n
                · rw [List.getElem?_ofFn, dif_pos hk] at hx
                  injection hx with hx
                  rw [← hx]
                  exact hi ⟨k, hk⟩
                · rw [List.getElem?_ofFn, dif_neg hk] at hx
                  cases hx
              · intro h
                cases h with
                | column => exact (h1 rfl).elim
                | picture h h' => exact (h' h3).elim
                | bands h h' hc hr =>
                  rw [hn] at h'
                  injection h' with h'
                  subst h'
                  obtain ⟨s', hs', hp'⟩ := (chosen_iff _ _ _).1 hc
                  rw [hs] at hs'
                  injection hs' with hs'
                  subst hs'
                  cases hp'
                | burst h h' hb' hl hr =>
                  rw [hn] at h'
                  injection h' with h'
                  subst h'
                  rw [List.map_map]
                  apply List.ext_getElem
                  · simp [hl]
                  · intro k hk1 hk2
                    simp only [List.length_map, List.length_range] at hk1
                    simp only [List.getElem_map, List.getElem_range, List.getElem_zipIdx, Function.comp, Nat.zero_add]
                    exact (drawing_ok ..).2 ⟨_, hr k _ (List.getElem?_eq_getElem (by omega)), rfl⟩
      · rw [if_neg h3, single_ok]
        constructor
        · rintro ⟨f, h, rfl⟩
          obtain ⟨i, hi, rfl⟩ := (drawing_ok ..).1 h
          exact .picture h1 h3 hi
        · intro h
          cases h with
          | column => exact (h1 rfl).elim
          | picture h h' hr => exact ⟨_, (drawing_ok ..).2 ⟨_, hr, rfl⟩, rfl⟩
          | bands h => exact (h3 h).elim
          | burst h => exact (h3 h).elim

theorem append_ok {α : Type} (xs ys : List (Except PyErr α)) (fs : List α) :
    xs ++ ys = fs.map .ok ↔ ∃ f1 f2, fs = f1 ++ f2 ∧ xs = f1.map .ok ∧ ys = f2.map .ok := by
  constructor
  · intro h
    obtain ⟨f1, f2, h1, h2, h3⟩ := List.map_eq_append_iff.1 h.symm
    exact ⟨f1, f2, h1, h2.symm, h3.symm⟩
  · rintro ⟨f1, f2, rfl, rfl, rfl⟩
    simp

theorem no_error {α : Type} (e : PyErr) (fs : List α) : ¬ [Except.error e] = fs.map .ok := by
  rw [single_ok]
  rintro ⟨f, h, -⟩
  cases h

theorem jobs_iff (E : Env A I) (o : Options) (name : Str) (item : Item A) (fs : List (Str × Content A I)) :
    jobs E o name item = fs.map .ok ↔ FilesOf E o name item fs := by
  by_cases him : Image item
  · obtain ⟨dims, a, rfl, hd⟩ : ∃ dims a, item = .array true dims a ∧ dims.length ≠ 1 := by
      cases item with
      | array p dims a =>
        cases p with
        | true => exact ⟨dims, a, rfl, him⟩
        | false => exact him.elim
      | recarray _ _ | frame _ _ | none | xml _ | other _ => exact him.elim
    simp only [jobs]
    rw [if_pos hd]
    have hnp : ∀ {base fs}, Begins E name base → ¬ Image (.array true dims a) → Files E o o.purge base (.array true dims a) fs → False :=
      fun _ h _ => h hd
    by_cases hf : E.fits = true ∧ (o.scaled = .both ∨ o.scaled = .no)
    · rw [if_pos hf, browsify_iff]
      constructor
      · intro h
        exact .fits ((begins_iff ..).2 rfl) hd hf.2 hf.1 h
      · intro h
        cases h with
        | plain h1 h2 h3 => exact (hnp h1 h2 h3).elim
        | scaled h1 h2 h3 => rcases hf.2 with h | h <;> rw [h] at h3 <;> cases h3
        | unscaled h1 h2 h3 h4 => rw [hf.1] at h4; cases h4
        | both h1 h2 h3 h4 => rw [hf.1] at h4; cases h4
        | fits h1 h2 h3 h4 h5 =>
          rw [begins_iff] at h1
          subst h1
          exact h5
    · rw [if_neg hf]
      have hnf : ∀ (P : Prop), E.fits = true → (o.scaled = .both ∨ o.scaled = .no) → P := fun P h1 h2 => (hf ⟨h1, h2⟩).elim
      cases hs : o.scaled with
      | both =>
        have hfit : E.fits = false := by
          cases h : E.fits with
          | false => rfl
          | true => exact hnf _ h (.inl hs)
        simp only
        cases ha : E.scale name false a with
        | error e =>
          simp only
          refine iff_of_false (no_error e fs) ?_
          intro h
          cases h with
          | plain h1 h2 h3 => exact (hnp h1 h2 h3).elim
          | scaled h1 h2 h3 => rw [hs] at h3; cases h3
          | unscaled h1 h2 h3 h4 => rw [hs] at h3; cases h3
          | both h1 h2 h3 h4 h5 => rw [ha] at h5; cases h5
          | fits h1 h2 h3 h4 h5 => exact hnf _ h4 h3
        | ok a' =>
          simp only [append_ok, browsify_iff]
          constructor
          · rintro ⟨f1, f2, rfl, h1, h2⟩
            exact .both ((begins_iff ..).2 rfl) hd hs hfit ha h1 h2
          · intro h
            cases h with
            | plain h1 h2 h3 => exact (hnp h1 h2 h3).elim
            | scaled h1 h2 h3 => rw [hs] at h3; cases h3
            | unscaled h1 h2 h3 h4 => rw [hs] at h3; cases h3
            | both h1 h2 h3 h4 h5 h6 h7 =>
              rw [ha] at h5
              injection h5 with h5
              subst h5
              rw [begins_iff] at h1
              subst h1
              exact ⟨_, _, rfl, h6, h7⟩
            | fits h1 h2 h3 h4 h5 => exact hnf _ h4 h3
      | yes =>
        simp only
        cases ha : E.scale name o.purge a with
        | error e =>
          simp only
          refine iff_of_false (no_error e fs) ?_
          intro h
          cases h with
          | plain h1 h2 h3 => exact (hnp h1 h2 h3).elim
          | scaled h1 h2 h3 h4 => rw [ha] at h4; cases h4
          | unscaled h1 h2 h3 h4 => rw [hs] at h3; cases h3
          | both h1 h2 h3 h4 h5 => rw [hs] at h3; cases h3
          | fits h1 h2 h3 h4 h5 => exact hnf _ h4 h3
        | ok a' =>
          simp only [browsify_iff]
          constructor
          · intro h
            exact .scaled ((begins_iff ..).2 rfl) hd hs ha h
          · intro h
            cases h with
            | plain h1 h2 h3 => exact (hnp h1 h2 h3).elim
            | scaled h1 h2 h3 h4 h5 =>
              rw [ha] at h4
              injection h4 with h4
              subst h4
              rw [begins_iff] at h1
              subst h1
              exact h5
            | unscaled h1 h2 h3 h4 => rw [hs] at h3; cases h3
            | both h1 h2 h3 h4 h5 h6 h7 => rw [hs] at h3; cases h3
            | fits h1 h2 h3 h4 h5 => exact hnf _ h4 h3
      | no =>
        have hfit : E.fits = false := by
          cases h : E.fits with
          | false => rfl
          | true => exact hnf _ h (.inr hs)
        simp only [browsify_iff]
        constructor
        · intro h
          exact .unscaled ((begins_iff ..).2 rfl) hd hs hfit h
        · intro h
          cases h with
          | plain h1 h2 h3 => exact (hnp h1 h2 h3).elim
          | scaled h1 h2 h3 h4 h5 => rw [hs] at h3; cases h3
          | unscaled h1 h2 h3 h4 h5 =>
            rw [begins_iff] at h1
            subst h1
            exact h5
          | both h1 h2 h3 h4 h5 h6 h7 => rw [hs] at h3; cases h3
          | fits h1 h2 h3 h4 h5 => exact hnf _ h4 h3
      | other =>
        simp only
        refine iff_of_false (no_error _ fs) ?_
        intro h
        cases h with
        | plain h1 h2 h3 => exact (hnp h1 h2 h3).elim
        | scaled h1 h2 h3 h4 => rw [hs] at h3; cases h3
        | unscaled h1 h2 h3 h4 => rw [hs] at h3; cases h3
        | both h1 h2 h3 h4 h5 => rw [hs] at h3; cases h3
        | fits h1 h2 h3 h4 h5 => exact hnf _ h4 h3
  · have hj : jobs E o name item = browsify E o o.purge (outfile E name) item := by
      unfold jobs
      simp only
      split
      case h_1 dims a => exact if_neg (fun h => him h)
      case h_2 => rfl
    rw [hj, browsify_iff]
    constructor
    · intro h
      exact .plain ((begins_iff ..).2 rfl) him h
    · intro h
      cases h with
      | plain h1 h2 h3 =>
        rw [begins_iff] at h1
        subst h1
        exact h3
      | scaled h1 h2 => exact (him h2).elim
      | unscaled h1 h2 => exact (him h2).elim
      | both h1 h2 => exact (him h2).elim
      | fits h1 h2 => exact (him h2).elim

/-! ### names -/

theorem cut {s : Char} {a b w v : Str} (hw : s ∉ w) (hv : s ∉ v) (h : a ++ s :: w = b ++ s :: v) : a = b ∧ w = v := by
  have h' : w.reverse ++ s :: a.reverse = v.reverse ++ s :: b.reverse := by
    have := congrArg List.reverse h
    simpa using this
  have key : ∀ (w v a b : Str), s ∉ w → s ∉ v → w ++ s :: a = v ++ s :: b → w = v ∧ a = b := by
    intro w
    induction w with
    | nil =>
      intro v a b _ hv h
      cases v with
      | nil => exact ⟨rfl, by simpa using h⟩
      | cons c v =>
        simp only [List.nil_append, List.cons_append, List.cons.injEq] at h
        exact (hv (by rw [h.1]; exact List.mem_cons_self)).elim
    | cons c w ih =>
      intro v a b hw hv h
      cases v with
      | nil =>
        simp only [List.nil_append, List.cons_append, List.cons.injEq] at h
        exact (hw (by rw [h.1]; exact List.mem_cons_self)).elim
      | cons d v =>
        simp only [List.cons_append, List.cons.injEq] at h
        obtain ⟨h1, h2⟩ := ih v a b (fun hm => hw (List.mem_cons_of_mem _ hm)) (fun hm => hv (List.mem_cons_of_mem _ hm)) h.2
        exact ⟨by rw [h.1, h1], h2⟩
  obtain ⟨h1, h2⟩ := key _ _ _ _ (by simpa using hw) (by simpa using hv) h'
  exact ⟨List.reverse_injective h2, List.reverse_injective h1⟩

theorem no_underscore (k : Nat) : '_' ∉ natStr k := by
  intro h
  have := Pds4Table.natStr_digit h
  revert this
  decide

theorem not_natStr {w : Str} {c : Char} (hc : c ∈ w) (hd : c.isDigit = false) (k : Nat) : w ≠ natStr k := by
  rintro rfl
  have := Pds4Table.natStr_digit hc
  rw [this] at hd
  cases hd

/-- an ending is one word or two -/
theorem ending_words {x : Str} (h : Ending x) : ∃ a w, x = a ++ '_' :: w ∧ '_' ∉ w ∧
    (a = [] ∧ (w = c!"scaled" ∨ w = c!"unscaled" ∨ ∃ k, w = natStr k) ∨
      (a = c!"_scaled" ∨ a = c!"_unscaled") ∧ (∃ k, w = natStr k) ∨ a = c!"_nested" ∧ w = c!"recarray") := by
  cases h with
  | scaled => exact ⟨[], c!"scaled", rfl, by decide, .inl ⟨rfl, .inl rfl⟩⟩
  | unscaled => exact ⟨[], c!"unscaled", rfl, by decide, .inl ⟨rfl, .inr (.inl rfl)⟩⟩
  | band => exact ⟨[], _, rfl, no_underscore _, .inl ⟨rfl, .inr (.inr ⟨_, rfl⟩)⟩⟩
  | scaledBand => exact ⟨c!"_scaled", _, rfl, no_underscore _, .inr (.inl ⟨.inl rfl, _, rfl⟩)⟩
  | unscaledBand => exact ⟨c!"_unscaled", _, rfl, no_underscore _, .inr (.inl ⟨.inr rfl, _, rfl⟩)⟩
  | nested => exact ⟨c!"_nested", c!"recarray", rfl, by decide, .inr (.inr ⟨rfl, rfl⟩)⟩

/-- what remains of an ending before another one is nothing, or an ending -/
theorem ending_cut {x y z : Str} (hx : Ending x) (hy : y = [] ∨ Ending y) (h : z ++ y = x) : z = [] ∨ Ending z := by
  rcases hy with rfl | hy
  · rw [List.append_nil] at h
    exact .inr (h ▸ hx)
  obtain ⟨a, w, rfl, hw, ha⟩ := ending_words hx
  obtain ⟨b, v, rfl, hv, hb⟩ := ending_words hy
  rw [← List.append_assoc] at h
  obtain ⟨h1, h2⟩ := cut hv hw h
  have rec1 : ∀ k, c!"recarray" ≠ natStr k := not_natStr (c := 'r') (by decide) (by decide)
  rcases ha with ⟨rfl, ha⟩ | ⟨ha, hk⟩ | ⟨rfl, rfl⟩
  · exact .inl (List.append_eq_nil_iff.1 h1).1
  · rcases hb with ⟨rfl, hb⟩ | ⟨hb, hk'⟩ | ⟨rfl, rfl⟩
    · rw [List.append_nil] at h1
      subst h1
      rcases ha with rfl | rfl
      · exact .inr .scaled
      · exact .inr .unscaled
    · have : ∃ u v', b = [] ++ '_' :: u ∧ a = [] ++ '_' :: v' ∧ '_' ∉ u ∧ '_' ∉ v' := by
        rcases ha with rfl | rfl <;> rcases hb with rfl | rfl <;> exact ⟨_, _, rfl, rfl, by decide, by decide⟩
      obtain ⟨u, v', rfl, rfl, hu, hv'⟩ := this
      rw [← List.append_assoc, List.append_nil] at h1
      exact .inl (cut hu hv' h1).1
    · obtain ⟨k, rfl⟩ := hk
      exact (rec1 k h2).elim
  · subst h2
    rcases hb with ⟨rfl, hb⟩ | ⟨hb, k, hk'⟩ | ⟨rfl, -⟩
    · rcases hb with hb | hb | ⟨k, hb⟩
      · exact absurd hb (by decide)
      · exact absurd hb (by decide)
      · exact (rec1 k hb).elim
    · exact (rec1 k hk').elim
    · exact .inl (by simpa using h1)

/-- two names followed by endings are the same only if one is the other with an ending -/
theorem names_apart {n m x y : Str} (hx : x = [] ∨ Ending x) (hy : y = [] ∨ Ending y) (h : n ++ x = m ++ y) :
    n = m ∨ (∃ z, Ending z ∧ m = n ++ z) ∨ ∃ z, Ending z ∧ n = m ++ z := by
  have key : ∀ {n m x y : Str}, (x = [] ∨ Ending x) → (y = [] ∨ Ending y) → (∃ z, m = n ++ z ∧ x = z ++ y) → n = m ∨ ∃ z, Ending z ∧ m = n ++ z := by
    rintro n m x y hx hy ⟨z, rfl, rfl⟩
    rcases hx with hx | hx
    · rw [(List.append_eq_nil_iff.1 hx).1]
      exact .inl (by simp)
    · rcases ending_cut hx hy rfl with rfl | hz
      · exact .inl (by simp)
      · exact .inr ⟨z, hz, rfl⟩
  rcases List.append_eq_append_iff.1 h with ⟨z, h1, h2⟩ | ⟨z, h1, h2⟩
  · rcases key hx hy ⟨z, h1, h2⟩ with h | h
    · exact .inl h
    · exact .inr (.inl h)
  · rcases key hy hx ⟨z, h1, h2⟩ with h | h
    · exact .inl h.symm
    · exact .inr (.inr h)

theorem outfile_append (E : Env A I) : ∃ c, ∀ m, outfile E m = c ++ m := by
  unfold outfile
  split
  · exact ⟨E.stem ++ c!"_", fun m => by simp⟩
  · exact ⟨E.outpath ++ '/' :: (E.stem ++ c!"_"), fun m => by simp⟩

/-- names of files of a value -/
theorem browsify_name {E : Env A I} {o : Options} {purge : Bool} {base : Str} {item : Item A} {f : Str × Content A I}
    (h : .ok f ∈ browsify E o purge base item) :
    ∃ x ext, (x = [] ∨ (∃ k, x = '_' :: natStr k) ∨ x = c!"_nested_recarray" ∧ ∀ p d a, item ≠ .array p d a) ∧
      ext ∈ [c!"csv", c!"xml", c!"txt", c!"pkl", o.format] ∧ f.1 = base ++ x ++ '.' :: ext := by
  have one : ∀ {x : Job A I}, .ok f ∈ [x] → .ok f = x := by simp
  have draw : ∀ {b part a}, Except.ok f = drawing E o purge b part a → f.1 = b ++ '.' :: o.format := by
    intro b part a h
    obtain ⟨i, -, rfl⟩ := (drawing_ok ..).1 h.symm
    rfl
  cases item with
  | recarray flat a =>
    cases flat with
    | true =>
      injection one h with h
      subst h
      exact ⟨[], c!"csv", .inl rfl, by simp, by simp⟩
    | false =>
      injection one h with h
      subst h
      exact ⟨c!"_nested_recarray", c!"pkl", .inr (.inr ⟨rfl, by simp⟩), by simp, by simp⟩
  | frame rows a =>
    injection one h with h
    subst h
    exact ⟨[], c!"csv", .inl rfl, by simp, by simp⟩
  | none => cases h
  | xml a =>
    injection one h with h
    subst h
    exact ⟨[], c!"xml", .inl rfl, by simp, by simp⟩
  | other a =>
    injection one h with h
    subst h
    exact ⟨[], c!"txt", .inl rfl, by simp, by simp⟩
  | array p dims a =>
    simp only [browsify] at h
    split at h
    · injection one h with h
      subst h
      exact ⟨[], c!"csv", .inl rfl, by simp, by simp⟩
    · unfold browsifyArray at h
      split at h
      · split at h
        · cases one h
        · split at h
          · cases one h
          · exact ⟨[], o.format, .inl rfl, by simp, by rw [draw (one h)]; simp⟩
          · exact ⟨[], o.format, .inl rfl, by simp, by rw [draw (one h)]; simp⟩
          · obtain ⟨e, -, h⟩ := List.mem_map.1 h
            exact ⟨_, o.format, .inr (.inl ⟨e.2, rfl⟩), by simp, draw h.symm⟩
      · exact ⟨[], o.format, .inl rfl, by simp, by rw [draw (one h)]; simp⟩

theorem files_name {E : Env A I} {o : Options} {purge : Bool} {base : Str} {item : Item A} {fs : List (Str × Content A I)}
    (h : Files E o purge base item fs) {f : Str × Content A I} (hf : f ∈ fs) : ∃ x, f.1 = base ++ x := by
  obtain ⟨x, ext, -, -, h⟩ := browsify_name (f := f) (by rw [(browsify_iff ..).2 h]; exact List.mem_map_of_mem hf)
  exact ⟨_, by rw [h, List.append_assoc]⟩

theorem jobs_name {E : Env A I} {o : Options} {name : Str} {item : Item A} {f : Str × Content A I}
    (h : .ok f ∈ jobs E o name item) : NameFor E o name f.1 := by
  have one : ∀ {e : PyErr}, (Except.ok f : Job A I) ∈ [.error e] → False := by simp
  have hb : Begins E name (outfile E name) := (begins_iff ..).2 rfl
  have plain : ∀ {purge item}, .ok f ∈ browsify E o purge (outfile E name) item → NameFor E o name f.1 := by
    intro purge item h
    obtain ⟨x, ext, hx, he, hp⟩ := browsify_name h
    refine ⟨_, x, ext, hb, ?_, he, hp⟩
    rcases hx with h | ⟨k, rfl⟩ | ⟨rfl, -⟩
    · exact .inl h
    · exact .inr .band
    · exact .inr .nested
  have scaled : ∀ {purge p dims a}, .ok f ∈ browsify E o purge (outfile E name ++ c!"_scaled") (.array p dims a) → NameFor E o name f.1 := by
    intro purge p dims a h
    obtain ⟨x, ext, hx, he, hp⟩ := browsify_name h
    refine ⟨_, c!"_scaled" ++ x, ext, hb, .inr ?_, he, by rw [hp]; simp⟩
    rcases hx with rfl | ⟨k, rfl⟩ | ⟨rfl, h⟩
    · exact .scaled
    · exact .scaledBand
    · exact (h _ _ _ rfl).elim
  have unscaled : ∀ {purge p dims a}, .ok f ∈ browsify E o purge (outfile E name ++ c!"_unscaled") (.array p dims a) → NameFor E o name f.1 := by
    intro purge p dims a h
    obtain ⟨x, ext, hx, he, hp⟩ := browsify_name h
    refine ⟨_, c!"_unscaled" ++ x, ext, hb, .inr ?_, he, by rw [hp]; simp⟩
    rcases hx with rfl | ⟨k, rfl⟩ | ⟨rfl, h⟩
    · exact .unscaled
    · exact .unscaledBand
    · exact (h _ _ _ rfl).elim
  unfold jobs at h
  simp only at h
  split at h
  · split at h
    · split at h
      · exact scaled h
      · split at h
        · split at h
          · exact (one h).elim
          · rcases List.mem_append.1 h with h | h
            · exact scaled h
            · exact unscaled h
        · split at h
          · exact (one h).elim
          · exact plain h
        · exact plain h
        · exact (one h).elim
    · exact plain h
  · exact plain h

theorem filesOf_name {E : Env A I} {o : Options} {name : Str} {item : Item A} {fs : List (Str × Content A I)}
    (h : FilesOf E o name item fs) {f : Str × Content A I} (hf : f ∈ fs) : NameFor E o name f.1 :=
  jobs_name (item := item) (by rw [(jobs_iff ..).2 h]; exact List.mem_map_of_mem hf)

/-- the files of a value have different names -/
theorem files_unique {E : Env A I} {o : Options} {purge : Bool} {base : Str} {item : Item A} {fs : List (Str × Content A I)}
    (h : Files E o purge base item fs) {f g : Str × Content A I} (hf : f ∈ fs) (hg : g ∈ fs) (he : f.1 = g.1) : f = g := by
  cases h with
  | table _ | row | records | column | nested | xml | text | picture _ _ _ | bands _ _ _ _ =>
    rw [List.mem_singleton] at hf hg
    rw [hf, hg]
  | nothing => cases hf
  | burst =>
    rw [List.mem_map] at hf hg
    obtain ⟨e, h1, rfl⟩ := hf
    obtain ⟨e', h2, rfl⟩ := hg
    simp only [List.append_cancel_right_eq, List.append_cancel_left_eq, List.cons.injEq, true_and] at he
    have he := Pds4Table.natStr_inj he
    have a := List.mem_zipIdx' h1
    have b := List.mem_zipIdx' h2
    have : e = e' := by
      rcases e with ⟨i, k⟩
      rcases e' with ⟨j, k'⟩
      simp only at he a b
      subst he
      simp only [a.2, b.2]
    rw [this]

theorem filesOf_unique {E : Env A I} {o : Options} {name : Str} {item : Item A} {fs : List (Str × Content A I)}
    (h : FilesOf E o name item fs) {f g : Str × Content A I} (hf : f ∈ fs) (hg : g ∈ fs) (he : f.1 = g.1) : f = g := by
  cases h with
  | plain _ _ h2 => exact files_unique h2 hf hg he
  | scaled _ _ _ _ h2 => exact files_unique h2 hf hg he
  | unscaled _ _ _ _ h2 => exact files_unique h2 hf hg he
  | fits _ _ _ _ h2 => exact files_unique h2 hf hg he
  | both _ _ _ _ _ h2 h3 =>
    have apart : ∀ {f g : Str × Content A I} {b x y}, f.1 = b ++ c!"_scaled" ++ x → g.1 = b ++ c!"_unscaled" ++ y → f.1 ≠ g.1 := by
      intro f g b x y h1 h2 h
      rw [h1, h2, List.append_assoc, List.append_assoc] at h
      have := List.append_cancel_left h
      simp at this
    rcases List.mem_append.1 hf with hf | hf <;> rcases List.mem_append.1 hg with hg | hg
    · exact files_unique h2 hf hg he
    · obtain ⟨x, h⟩ := files_name h2 hf
      obtain ⟨x', h'⟩ := files_name h3 hg
      exact (apart h h' he).elim
    · obtain ⟨x, h⟩ := files_name h3 hf
      obtain ⟨x', h'⟩ := files_name h2 hg
      exact (apart h' h he.symm).elim
    · exact files_unique h3 hf hg he

/-- files of different objects have different names -/
theorem nameFor_apart {E : Env A I} {o : Options} (hd : '.' ∉ o.format) {n m p : Str} (hn : NameFor E o n p) (hm : NameFor E o m p) :
    n = m ∨ (∃ z, Ending z ∧ m = n ++ z) ∨ ∃ z, Ending z ∧ n = m ++ z := by
  obtain ⟨b, x, e, hb, hx, he, rfl⟩ := hn
  obtain ⟨b', y, e', hb', hy, he', h⟩ := hm
  rw [begins_iff] at hb hb'
  obtain ⟨c, hc⟩ := outfile_append E
  have dot : ∀ {e}, e ∈ [c!"csv", c!"xml", c!"txt", c!"pkl", o.format] → '.' ∉ e := by
    intro e he
    simp only [List.mem_cons, List.not_mem_nil, or_false] at he
    rcases he with rfl | rfl | rfl | rfl | rfl
    · decide
    · decide
    · decide
    · decide
    · exact hd
  have h := (cut (dot he) (dot he') h).1
  rw [hb, hb', hc, hc, List.append_assoc, List.append_assoc] at h
  exact names_apart hx hy (List.append_cancel_left h)

/-! ### writing -/

theorem perform_disk (E : Env A I) (js : List (Job A I)) (d : Str → Option (Content A I)) (p : Str) :
    (perform E d js).1 p = d p ∨ ∃ f, .ok f ∈ js ∧ f.1 = p ∧ (perform E d js).1 p = some f.2 := by
  induction js generalizing d with
  | nil => exact .inl rfl
  | cons j js ih =>
    cases j with
    | error e => exact .inl rfl
    | ok f =>
      unfold perform
      cases ho : E.opens f.1 with
      | some e => exact .inl rfl
      | none =>
        rcases ih (write d f) with h | ⟨g, hg, h1, h2⟩
        · simp only
          rw [h]
          by_cases hp : p = f.1
          · exact .inr ⟨f, List.mem_cons_self, hp.symm, by unfold write; rw [if_pos hp]⟩
          · exact .inl (by unfold write; rw [if_neg hp])
        · exact .inr ⟨g, List.mem_cons_of_mem _ hg, h1, h2⟩

theorem perform_ok (E : Env A I) (fs : List (Str × Content A I)) (d : Str → Option (Content A I)) (ho : ∀ f ∈ fs, E.opens f.1 = none) :
    (perform E d (fs.map .ok)).2 = none ∧ ∀ f ∈ fs, ∃ g ∈ fs, g.1 = f.1 ∧ (perform E d (fs.map .ok)).1 f.1 = some g.2 := by
  induction fs generalizing d with
  | nil => exact ⟨rfl, by simp⟩
  | cons f fs ih =>
    have hf := ho f List.mem_cons_self
    obtain ⟨h1, h2⟩ := ih (write d f) (fun g hg => ho g (List.mem_cons_of_mem _ hg))
    simp only [List.map_cons, perform, hf]
    refine ⟨h1, ?_⟩
    intro g hg
    by_cases hm : ∃ g' ∈ fs, g'.1 = g.1
    · obtain ⟨g', hg', he⟩ := hm
      obtain ⟨g2, a, b, c⟩ := h2 g' hg'
      exact ⟨g2, List.mem_cons_of_mem _ a, by rw [b, he], by rw [← he]; exact c⟩
    · rcases List.mem_cons.1 hg with rfl | hg
      · refine ⟨g, List.mem_cons_self, rfl, ?_⟩
        rcases perform_disk E (fs.map .ok) (write d g) g.1 with h | ⟨g', a, b, -⟩
        · rw [h]; unfold write; rw [if_pos rfl]
        · obtain ⟨g2, hg2, h⟩ := List.mem_map.1 a
          injection h with h
          subst h
          exact (hm ⟨_, hg2, b⟩).elim
      · exact (hm ⟨g, hg, rfl⟩).elim

theorem perform_none (E : Env A I) (js : List (Job A I)) (d : Str → Option (Content A I)) (h : (perform E d js).2 = none) :
    ∃ fs : List (Str × Content A I), js = fs.map .ok ∧ ∀ f ∈ fs, E.opens f.1 = none := by
  induction js generalizing d with
  | nil => exact ⟨[], rfl, by simp⟩
  | cons j js ih =>
    cases j with
    | error e => cases h
    | ok f =>
      unfold perform at h
      cases ho : E.opens f.1 with
      | some e => rw [ho] at h; cases h
      | none =>
        rw [ho] at h
        obtain ⟨fs, rfl, h'⟩ := ih _ h
        exact ⟨f :: fs, rfl, by simpa [ho] using h'⟩

/-- this can be written for an object -/
def Good (E : Env A I) (o : Options) (s : State A I) (n : Str) : Prop :=
  ∀ item, s.attrs n = some item → ∃ fs, FilesOf E o n item fs ∧ ∀ f ∈ fs, E.opens f.1 = none

/-- a file of an object -/
def FileAt (E : Env A I) (o : Options) (s : State A I) (n : Str) (f : Str × Content A I) : Prop :=
  ∃ item fs, s.attrs n = some item ∧ FilesOf E o n item fs ∧ f ∈ fs

theorem dumpOne_good {E : Env A I} {o : Options} {s : State A I} {n : Str} (h : Good E o s n) :
    ∃ d, dumpOne E o s n = ({ s with disk := d, attrs := if o.purge then (fun m => if m = n then none else s.attrs m) else s.attrs }, none) ∧
      (∀ p, d p = s.disk p ∨ ∃ f, FileAt E o s n f ∧ f.1 = p ∧ d p = some f.2) ∧
      ∀ f, FileAt E o s n f → ∃ g, FileAt E o s n g ∧ g.1 = f.1 ∧ d f.1 = some g.2 := by
  unfold dumpOne
  cases ha : s.attrs n with
  | none =>
    refine ⟨s.disk, ?_, fun p => .inl rfl, ?_⟩
    · simp only
      have : (fun m => if m = n then none else s.attrs m) = s.attrs := by
        funext m
        split
        case isTrue h => rw [h, ha]
        case isFalse => rfl
      rw [this]
      simp
    · rintro f ⟨item, fs, h, -⟩
      rw [ha] at h
      cases h
  | some item =>
    obtain ⟨fs, hfs, ho⟩ := h item ha
    have hj := (jobs_iff ..).2 hfs
    obtain ⟨h1, h2⟩ := perform_ok E fs s.disk ho
    have h3 := perform_disk E (fs.map .ok) s.disk
    rw [← hj] at h1 h2 h3
    simp only
    cases hp : perform E s.disk (jobs E o n item) with
    | mk d r =>
      rw [hp] at h1 h2 h3
      subst h1
      refine ⟨d, rfl, ?_, ?_⟩
      · intro p
        rcases h3 p with h | ⟨f, hf, h, h'⟩
        · exact .inl h
        · rw [hj] at hf
          obtain ⟨f', hf', e⟩ := List.mem_map.1 hf
          injection e with e
          subst e
          exact .inr ⟨_, ⟨item, fs, ha, hfs, hf'⟩, h, h'⟩
      · rintro f ⟨item', fs', ha', hfs', hf⟩
        rw [ha] at ha'
        injection ha' with ha'
        subst ha'
        have : fs' = fs := map_ok_inj _ _ (((jobs_iff ..).2 hfs').symm.trans hj)
        subst this
        obtain ⟨g, a, b, c⟩ := h2 f hf
        exact ⟨g, ⟨item, _, ha, hfs, a⟩, b, c⟩

theorem dumpOne_bad {E : Env A I} {o : Options} {s : State A I} {n : Str} (h : ¬ Good E o s n) :
    ∃ d e item, s.attrs n = some item ∧ dumpOne E o s n = ({ s with disk := d, attrs := if o.purge then
        (fun m => if m = n then some (damage E n item) else s.attrs m) else s.attrs }, some e) ∧
      ∀ p, d p = s.disk p ∨ NameFor E o n p := by
  unfold dumpOne
  cases ha : s.attrs n with
  | none => exact (h (fun item h => by rw [ha] at h; cases h)).elim
  | some item =>
    simp only
    cases hp : perform E s.disk (jobs E o n item) with
    | mk d r =>
      have h3 := perform_disk E (jobs E o n item) s.disk
      have h4 := perform_none E (jobs E o n item) s.disk
      rw [hp] at h3 h4
      cases r with
      | none =>
        obtain ⟨fs, hfs, ho⟩ := h4 rfl
        refine (h ?_).elim
        intro item' h'
        rw [ha] at h'
        injection h' with h'
        subst h'
        exact ⟨fs, (jobs_iff ..).1 hfs, ho⟩
      | some e =>
        refine ⟨d, e, item, rfl, rfl, ?_⟩
        intro p
        rcases h3 p with h | ⟨f, hf, h, -⟩
        · exact .inl h
        · exact .inr (h ▸ jobs_name hf)

theorem dumpFrom_good (E : Env A I) (o : Options) (names : List Str) (s : State A I) (h : ∀ n ∈ names, Good E o s n) :
    ∃ d, dumpFrom E o s names =
        ({ s with disk := d, attrs := if o.purge then (fun m => if m ∈ names then none else s.attrs m) else s.attrs }, none) ∧
      (∀ p, d p = s.disk p ∨ ∃ n ∈ names, ∃ f, FileAt E o s n f ∧ f.1 = p ∧ d p = some f.2) ∧
      ∀ n ∈ names, ∀ f, FileAt E o s n f → ∃ m ∈ names, ∃ g, FileAt E o s m g ∧ g.1 = f.1 ∧ d f.1 = some g.2 := by
  induction names generalizing s with
  | nil => exact ⟨s.disk, by simp [dumpFrom], fun p => .inl rfl, by simp⟩
  | cons n names ih =>
    obtain ⟨d1, h1, h2, h3⟩ := dumpOne_good (h n List.mem_cons_self)
    generalize hs1 : ({ s with disk := d1, attrs := if o.purge then (fun m => if m = n then none else s.attrs m) else s.attrs } : State A I) = s1 at h1
    have hattr : ∀ {m item}, s1.attrs m = some item → s.attrs m = some item := by
      intro m item hm
      rw [← hs1] at hm
      simp only at hm
      split at hm
      · simp only at hm
        split at hm
        · cases hm
        · exact hm
      · exact hm
    have hfile : ∀ {m f}, FileAt E o s1 m f → FileAt E o s m f := by
      rintro m f ⟨item, fs, a, b, c⟩
      exact ⟨item, fs, hattr a, b, c⟩
    have hfile' : ∀ {m f}, FileAt E o s m f → FileAt E o s1 m f ∨ m = n := by
      rintro m f ⟨item, fs, a, b, c⟩
      by_cases hm : m = n
      · exact .inr hm
      · refine .inl ⟨item, fs, ?_, b, c⟩
        rw [← hs1]
        simp only
        split
        · simp only
          rw [if_neg hm]
          exact a
        · exact a
    obtain ⟨d, k1, k2, k3⟩ := ih s1 (fun m hm item hi => h m (List.mem_cons_of_mem _ hm) item (hattr hi))
    have hdisk : s1.disk = d1 := by rw [← hs1]
    have hindex : s1.index = s.index := by rw [← hs1]
    refine ⟨d, ?_, ?_, ?_⟩
    · simp only [dumpFrom, h1, k1, hindex]
      rw [← hs1]
      simp only
      cases o.purge with
      | false => rfl
      | true =>
        simp only [if_true]
        congr 2
        funext m
        by_cases hm : m = n
        · simp [hm]
        · simp [hm]
    · intro p
      rcases k2 p with h | ⟨m, hm, f, hf, a, b⟩
      · rw [hdisk] at h
        rw [h]
        rcases h2 p with h | ⟨f, hf, a, b⟩
        · exact .inl h
        · exact .inr ⟨n, List.mem_cons_self, f, hf, a, b⟩
      · exact .inr ⟨m, List.mem_cons_of_mem _ hm, f, hfile hf, a, b⟩
    · intro m hm f hf
      have first : FileAt E o s n f → ∃ m ∈ n :: names, ∃ g, FileAt E o s m g ∧ g.1 = f.1 ∧ d f.1 = some g.2 := by
        intro hf
        rcases k2 f.1 with h | ⟨m', hm', g, hg, a, b⟩
        · obtain ⟨g, hg, a, b⟩ := h3 f hf
          exact ⟨n, List.mem_cons_self, g, hg, a, by rw [h, hdisk]; exact b⟩
        · exact ⟨m', List.mem_cons_of_mem _ hm', g, hfile hg, a, b⟩
      rcases List.mem_cons.1 hm with rfl | hm
      · exact first hf
      · rcases hfile' hf with hf | rfl
        · obtain ⟨m', hm', g, hg, a, b⟩ := k3 m hm f hf
          exact ⟨m', List.mem_cons_of_mem _ hm', g, hfile hg, a, b⟩
        · exact first hf

theorem dumpFrom_append (E : Env A I) (o : Options) (pre post : List Str) (s s' : State A I) (h : dumpFrom E o s pre = (s', none)) :
    dumpFrom E o s (pre ++ post) = dumpFrom E o s' post := by
  induction pre generalizing s with
  | nil =>
    injection h with h
    subst h
    rfl
  | cons n pre ih =>
    simp only [List.cons_append, dumpFrom] at h ⊢
    cases h1 : dumpOne E o s n with
    | mk s1 r =>
      rw [h1] at h
      cases r with
      | none => exact ih s1 h
      | some e => cases h

/-! ### the theorems -/

/-- **C123.** `dump_browse`, if the files of each object that is listed and loaded can be made and opened, no object has the name of another
one with such an ending, and the format has no dot: nothing fails; in the end each of these files holds what it should, and every other path
holds what it held before; the list of objects stays the same; with `purge` the listed objects are gone from memory and the others are still
there, without it all are as before. -/
theorem C123_dump (E : Env A I) (o : Options) (s : State A I) (hdot : '.' ∉ o.format) (hclash : NoClash s)
    (hgood : ∀ n item, n ∈ s.index → s.attrs n = some item → ∃ fs, FilesOf E o n item fs ∧ ∀ f ∈ fs, E.opens f.1 = none) :
    ∃ s', dumpBrowse E o s = (s', none) ∧
      (∀ n item fs, n ∈ s.index → s.attrs n = some item → FilesOf E o n item fs → ∀ f ∈ fs, s'.disk f.1 = some f.2) ∧
      (∀ p, (∀ n item fs, n ∈ s.index → s.attrs n = some item → FilesOf E o n item fs → ∀ f ∈ fs, f.1 ≠ p) → s'.disk p = s.disk p) ∧
      s'.index = s.index ∧
      (o.purge = false → s'.attrs = s.attrs) ∧
      (o.purge = true → (∀ n ∈ s.index, s'.attrs n = none) ∧ ∀ n, n ∉ s.index → s'.attrs n = s.attrs n) := by
  obtain ⟨d, h1, h2, h3⟩ := dumpFrom_good E o s.index s (fun n hn item hi => hgood n item hn hi)
  refine ⟨_, h1, ?_, ?_, rfl, ?_, ?_⟩
  · intro n item fs hn hi hfs f hf
    obtain ⟨m, hm, g, ⟨item', fs', hi', hfs', hg⟩, he, hd⟩ := h3 n hn f ⟨item, fs, hi, hfs, hf⟩
    simp only
    rw [hd]
    have a := filesOf_name hfs hf
    have b := filesOf_name hfs' hg
    rw [he] at b
    have hln : Loaded s n := ⟨hn, by rw [hi]; simp⟩
    have hlm : Loaded s m := ⟨hm, by rw [hi']; simp⟩
    rcases nameFor_apart hdot a b with rfl | ⟨z, hz, h⟩ | ⟨z, hz, h⟩
    · rw [hi] at hi'
      injection hi' with hi'
      subst hi'
      have : fs' = fs := map_ok_inj _ _ (((jobs_iff ..).2 hfs').symm.trans ((jobs_iff ..).2 hfs))
      subst this
      rw [filesOf_unique hfs hg hf he]
    · exact (hclash n m hln hlm z hz h).elim
    · exact (hclash m n hlm hln z hz h).elim
  · intro p hp
    rcases h2 p with h | ⟨n, hn, f, ⟨item, fs, hi, hfs, hf⟩, a, -⟩
    · exact h
    · exact (hp n item fs hn hi hfs f hf a).elim
  · intro hpu
    simp [hpu]
  · intro hpu
    refine ⟨fun n hn => ?_, fun n hn => ?_⟩
    · simp [hpu, hn]
    · simp [hpu, hn]

/-- **C123 (failures).** If `dump_browse` fails, it does so at the first listed and loaded object whose files cannot all be made and opened.
All objects before it were dealt with: their files are there (unless names clash) and, with `purge`, they are gone from memory. The object
itself is still loaded, all objects after it are as before, and no path was touched but those for the objects up to this one. Without such an
object nothing fails. -/
theorem C123_stops (E : Env A I) (o : Options) (s s' : State A I) (e : PyErr) (h : dumpBrowse E o s = (s', some e)) :
    ∃ pre n post item, s.index = pre ++ n :: post ∧ n ∉ pre ∧ s.attrs n = some item ∧
      (∀ fs, FilesOf E o n item fs → ∃ f ∈ fs, E.opens f.1 ≠ none) ∧
      (∀ m item, m ∈ pre → s.attrs m = some item → ∃ fs, FilesOf E o m item fs ∧ ∀ f ∈ fs, E.opens f.1 = none ∧
        ('.' ∉ o.format → NoClash s → s'.disk f.1 = some f.2)) ∧
      (∀ p, (∀ m ∈ pre, ¬ NameFor E o m p) → ¬ NameFor E o n p → s'.disk p = s.disk p) ∧
      s'.index = s.index ∧ s'.attrs n ≠ none ∧
      (o.purge = false → s'.attrs = s.attrs) ∧
      (o.purge = true → (∀ m ∈ pre, s'.attrs m = none) ∧ ∀ m, m ∉ pre → m ≠ n → s'.attrs m = s.attrs m) := by
  classical
  have hsplit : ∀ names : List Str, (∀ n ∈ names, Good E o s n) ∨
      ∃ pre n post, names = pre ++ n :: post ∧ (∀ m ∈ pre, Good E o s m) ∧ ¬ Good E o s n := by
    intro names
    induction names with
    | nil => exact .inl (by simp)
    | cons n names ih =>
      by_cases hn : Good E o s n
      · rcases ih with h | ⟨pre, m, post, rfl, h1, h2⟩
        · exact .inl (by simpa [hn] using h)
        · exact .inr ⟨n :: pre, m, post, rfl, by simpa [hn] using h1, h2⟩
      · exact .inr ⟨[], n, names, rfl, by simp, hn⟩
  unfold dumpBrowse at h
  rcases hsplit s.index with hall | ⟨pre, n, post, hidx, hpre, hn⟩
  · obtain ⟨d, h1, -⟩ := dumpFrom_good E o s.index s hall
    rw [h1] at h
    injection h with _ h
    cases h
  · obtain ⟨d, h1, h2, h3⟩ := dumpFrom_good E o pre s hpre
    have hnp : n ∉ pre := fun h => hn (hpre n h)
    rw [hidx, dumpFrom_append E o pre (n :: post) s _ h1] at h
    generalize hs1 : ({ s with disk := d, attrs := if o.purge then (fun m => if m ∈ pre then none else s.attrs m) else s.attrs } : State A I) = s1 at h
    have hattr : s1.attrs n = s.attrs n := by
      rw [← hs1]
      cases o.purge <;> simp [hnp]
    have hn1 : ¬ Good E o s1 n := by
      intro hg
      refine hn (fun item hi => hg item ?_)
      rw [hattr, hi]
    obtain ⟨d', e', item, hi, h4, h5⟩ := dumpOne_bad hn1
    rw [hattr] at hi
    simp only [dumpFrom, h4] at h
    injection h with h _
    have hd1 : s1.disk = d := by rw [← hs1]
    have hsd : s'.disk = d' := by rw [← h]
    refine ⟨pre, n, post, item, hidx, hnp, hi, ?_, ?_, ?_, ?_, ?_, ?_, ?_⟩
    · intro fs hfs
      by_contra hc
      refine hn (fun item' hi' => ?_)
      rw [hi] at hi'
      injection hi' with hi'
      subst hi'
      refine ⟨fs, hfs, fun f hf => ?_⟩
      by_contra ho
      exact hc ⟨f, hf, ho⟩
    · intro m item' hm hi'
      obtain ⟨fs, hfs, ho⟩ := hpre m hm item' hi'
      refine ⟨fs, hfs, fun f hf => ⟨ho f hf, fun hdot hclash => ?_⟩⟩
      have hlm : Loaded s m := ⟨by rw [hidx]; simp [hm], by rw [hi']; simp⟩
      have hln : Loaded s n := ⟨by rw [hidx]; simp, by rw [hi]; simp⟩
      have a := filesOf_name hfs hf
      rw [hsd]
      rcases h5 f.1 with h | hb
      · obtain ⟨m', hm', g, ⟨item'', fs', hi'', hfs', hg⟩, he, hd⟩ := h3 m hm f ⟨item', fs, hi', hfs, hf⟩
        rw [h, hd1, hd]
        have b := filesOf_name hfs' hg
        rw [he] at b
        have hlm' : Loaded s m' := ⟨by rw [hidx]; simp [hm'], by rw [hi'']; simp⟩
        rcases nameFor_apart hdot a b with rfl | ⟨z, hz, h⟩ | ⟨z, hz, h⟩
        · rw [hi'] at hi''
          injection hi'' with hi''
          subst hi''
          have : fs' = fs := map_ok_inj _ _ (((jobs_iff ..).2 hfs').symm.trans ((jobs_iff ..).2 hfs))
          subst this
          rw [filesOf_unique hfs hg hf he]
        · exact (hclash m m' hlm hlm' z hz h).elim
        · exact (hclash m' m hlm' hlm z hz h).elim
      · rcases nameFor_apart hdot a hb with rfl | ⟨z, hz, h⟩ | ⟨z, hz, h⟩
        · exact (hnp hm).elim
        · exact (hclash m n hlm hln z hz h).elim
        · exact (hclash n m hln hlm z hz h).elim
    · intro p hp hpn
      rw [hsd]
      rcases h5 p with h | h
      · rw [h, hd1]
        rcases h2 p with h | ⟨m, hm, f, ⟨item', fs, -, hfs, hf⟩, a, -⟩
        · exact h
        · exact (hp m hm (a ▸ filesOf_name hfs hf)).elim
      · exact (hpn h).elim
    · rw [← h, ← hs1]
    · rw [← h]
      cases o.purge
      · simp [hattr, hi]
      · simp
    · intro hpu
      rw [← h, ← hs1]
      simp [hpu]
    · intro hpu
      refine ⟨fun m hm => ?_, fun m hm hmn => ?_⟩
      · have hne : m ≠ n := fun he => hnp (he ▸ hm)
        rw [← h, ← hs1]
        simp [hpu, hne, hm]
      · rw [← h, ← hs1]
        simp [hpu, hm, hmn]

/-! ### limits -/

/-- **C124 (clashes).** The picture of band `k` of an object `n` dumped band by band and the picture of an object with the name `n_k` are in
the same file: when the second is the last object, its picture is what is left, although nothing fails. -/
theorem C124_clash (E : Env A I) (o : Options) (s s' : State A I) (pre : List Str) (n : Str) (k : Nat) (p q : Bool) (dims dims' : List Nat) (a b : A)
    (fs fs' : List (Str × Content A I)) (hidx : s.index = pre ++ [n ++ '_' :: natStr k]) (hlast : n ++ '_' :: natStr k ∉ pre) (hn : n ∈ pre)
    (h1 : s.attrs n = some (.array p dims a)) (h2 : s.attrs (n ++ '_' :: natStr k) = some (.array q dims' b))
    (hd : dims.length = 3) (hd' : dims'.length ≠ 1) (hd3 : dims'.length ≠ 3)
    (hone : o.scaled = .yes ∨ o.scaled = .no ∧ E.fits = false) (bands : Nat) (hb : dims[o.sliceAxis]? = some bands) (hburst : Burst o bands) (hk : k < bands)
    (hf : FilesOf E o n (.array p dims a) fs) (hf' : FilesOf E o (n ++ '_' :: natStr k) (.array q dims' b) fs')
    (h : dumpBrowse E o s = (s', none)) :
    ∃ f ∈ fs, ∃ g ∈ fs', f.1 = g.1 ∧ s'.disk f.1 = some g.2 := by
  have files : ∀ {m : Str} {p : Bool} {dims : List Nat} {a : A} {fs : List (Str × Content A I)}, FilesOf E o m (.array p dims a) fs →
      dims.length ≠ 1 → ∃ p' a', Files E o o.purge (outfile E m) (.array p' dims a') fs := by
    intro m p dims a fs h hl
    cases h with
    | plain h1 _ h2 => rw [begins_iff] at h1; subst h1; exact ⟨_, _, h2⟩
    | scaled h1 _ _ _ h2 => rw [begins_iff] at h1; subst h1; exact ⟨_, _, h2⟩
    | unscaled h1 _ _ _ h2 => rw [begins_iff] at h1; subst h1; exact ⟨_, _, h2⟩
    | both _ _ h3 => rcases hone with h | ⟨h, -⟩ <;> rw [h] at h3 <;> cases h3
    | fits _ _ h3 h4 =>
      rcases hone with h | ⟨h, h'⟩
      · rw [h] at h3; rcases h3 with h3 | h3 <;> cases h3
      · rw [h'] at h4; cases h4
  obtain ⟨p', a', hF⟩ := files hf (by omega)
  obtain ⟨q', b', hG⟩ := files hf' hd'
  obtain ⟨f, hfm, hfp⟩ : ∃ f ∈ fs, f.1 = outfile E n ++ '_' :: natStr k ++ '.' :: o.format := by
    cases hF with
    | column => cases hd
    | picture _ h => exact (h hd).elim
    | bands _ hn hc =>
      rw [hb] at hn
      injection hn with hn
      subst hn
      obtain ⟨sel, h1, h2⟩ := (chosen_iff _ _ _).1 hc
      rw [(burst_iff _ _ _).2 ⟨hburst, rfl⟩] at h1
      injection h1 with h1
      subst h1
      cases h2
    | @burst _ _ _ _ is _ hn _ hl _ =>
      rw [hb] at hn
      injection hn with hn
      subst hn
      exact ⟨_, List.mem_map_of_mem (List.mem_iff_getElem?.2 ⟨k, List.getElem?_eq_getElem (by simpa [hl] using hk)⟩), by simp⟩
  obtain ⟨i, rfl⟩ : ∃ i, fs' = [(outfile E (n ++ '_' :: natStr k) ++ '.' :: o.format, .picture i)] := by
    cases hG with
    | column => exact (hd' rfl).elim
    | picture => exact ⟨_, rfl⟩
    | bands h => exact (hd3 h).elim
    | burst h => exact (hd3 h).elim
  have he : f.1 = outfile E (n ++ '_' :: natStr k) ++ '.' :: o.format := by
    obtain ⟨c, hc⟩ := outfile_append E
    rw [hfp, hc, hc]
    simp
  refine ⟨f, hfm, _, List.mem_singleton_self _, he, ?_⟩
  unfold dumpBrowse at h
  rw [hidx] at h
  cases hp : dumpFrom E o s pre with
  | mk s1 r =>
    have hattr : ∀ (names : List Str) (s s1 : State A I) (r : Option PyErr), dumpFrom E o s names = (s1, r) → ∀ m, m ∉ names → s1.attrs m = s.attrs m := by
      intro names
      induction names with
      | nil =>
        intro s s1 r h m hm
        injection h with h _
        rw [h]
      | cons x names ih =>
        intro s s1 r h m hm
        rw [List.mem_cons, not_or] at hm
        have one : (dumpOne E o s x).1.attrs m = s.attrs m := by
          unfold dumpOne
          cases s.attrs x with
          | none => rfl
          | some item =>
            simp only
            split <;> (simp only; split) <;> simp [hm.1]
        simp only [dumpFrom] at h
        cases h1 : dumpOne E o s x with
        | mk s2 r2 =>
          rw [h1] at h one
          cases r2 with
          | none => rw [ih s2 s1 r h m hm.2]; exact one
          | some e =>
            injection h with h _
            rw [← h]
            exact one
    cases r with
    | some e =>
      exfalso
      have : ∀ (xs ys : List Str) (s s1 : State A I) (e : PyErr), dumpFrom E o s xs = (s1, some e) → dumpFrom E o s (xs ++ ys) = (s1, some e) := by
        intro xs ys
        induction xs with
        | nil =>
          intro s s1 e h
          injection h with _ h
          cases h
        | cons x xs ih =>
          intro s s1 e h
          simp only [List.cons_append, dumpFrom] at h ⊢
          cases h1 : dumpOne E o s x with
          | mk s2 r2 =>
            rw [h1] at h
            cases r2 with
            | none => exact ih s2 s1 e h
            | some e' => exact h
      rw [this pre _ s s1 e hp] at h
      injection h with _ h
      cases h
    | none =>
      rw [dumpFrom_append E o pre _ s s1 hp] at h
      simp only [dumpFrom] at h
      have ha := hattr pre s s1 none hp _ hlast
      rw [h2] at ha
      have hgood : Good E o s1 (n ++ '_' :: natStr k) := by
        by_contra hbad
        obtain ⟨d, e, item, -, h4, -⟩ := dumpOne_bad hbad
        rw [h4] at h
        injection h with _ h
        cases h
      obtain ⟨d, h3, -, h5⟩ := dumpOne_good hgood
      rw [h3] at h
      injection h with h _
      have hfile : FileAt E o s1 (n ++ '_' :: natStr k) (outfile E (n ++ '_' :: natStr k) ++ '.' :: o.format, .picture i) :=
        ⟨_, _, ha, hf', List.mem_singleton_self _⟩
      obtain ⟨g, ⟨item, fs2, ha2, hfs2, hg⟩, hge, hgd⟩ := h5 _ hfile
      rw [ha] at ha2
      injection ha2 with ha2
      subst ha2
      have := map_ok_inj _ _ (((jobs_iff ..).2 hfs2).symm.trans ((jobs_iff ..).2 hf'))
      subst this
      rw [List.mem_singleton] at hg
      subst hg
      rw [← h, he]
      exact hgd

/-- **C124 (nothing loaded).** Objects that were not loaded are not dumped: `dump_browse` right after opening a product does nothing, whatever
its arguments. -/
theorem C124_unloaded (E : Env A I) (o : Options) (s : State A I) (h : ∀ n ∈ s.index, s.attrs n = none) : dumpBrowse E o s = (s, none) := by
  unfold dumpBrowse
  have : ∀ names : List Str, (∀ n ∈ names, s.attrs n = none) → dumpFrom E o s names = (s, none) := by
    intro names
    induction names with
    | nil => intro _; rfl
    | cons n names ih =>
      intro h
      simp only [dumpFrom, dumpOne, h n List.mem_cons_self]
      exact ih (fun m hm => h m (List.mem_cons_of_mem _ hm))
  exact this s.index h

/-- **C124 (None).** An object that is `None` has no file; with `purge` it is gone all the same. -/
theorem C124_none (E : Env A I) (o : Options) (s : State A I) (n : Str) (hp : o.purge = true) (h : s.attrs n = some .none) :
    ∃ s', dumpOne E o s n = (s', none) ∧ s'.disk = s.disk ∧ s'.attrs n = none := by
  have hj : jobs E o n (.none : Item A) = [] := rfl
  unfold dumpOne
  rw [h]
  exact ⟨_, rfl, rfl, by simp [hp]⟩

/-- **C124 (one row).** The file of a table with one row has rows and columns exchanged, unlike that of any other table. -/
theorem C124_row (E : Env A I) (o : Options) (n : Str) (rows : Nat) (a : A) (fs : List (Str × Content A I)) :
    FilesOf E o n (.frame rows a) fs ↔ rows = 1 ∧ fs = [(outfile E n ++ c!".csv", .turned a)] ∨ rows ≠ 1 ∧ fs = [(outfile E n ++ c!".csv", .rows a)] := by
  rw [← jobs_iff]
  have hj : jobs E o n (.frame rows a) = [.ok (outfile E n ++ c!".csv", if rows = 1 then .turned a else .rows a)] := rfl
  rw [hj, single_ok]
  by_cases h : rows = 1
  · simp [h]
  · simp [h]

/-- **C124 (scaling of FITS files).** Images of a FITS file that are not to be scaled, or to be written both ways, have files with `_scaled` in
their name, and only those; what is in them was not scaled by `dump_browse`. -/
theorem C124_fits (E : Env A I) (o : Options) (n : Str) (dims : List Nat) (a : A) (fs : List (Str × Content A I)) (hd : dims.length ≠ 1)
    (hE : E.fits = true) (ho : o.scaled = .no ∨ o.scaled = .both) :
    FilesOf E o n (.array true dims a) fs ↔ Files E o o.purge (outfile E n ++ c!"_scaled") (.array true dims a) fs := by
  rw [← jobs_iff, ← browsify_iff]
  have : jobs E o n (.array true dims a) = browsify E o o.purge (outfile E n ++ c!"_scaled") (.array true dims a) := by
    unfold jobs
    simp only
    rw [if_pos hd, if_pos ⟨hE, ho.symm⟩]
  rw [this]

/-- **C124 (unknown scaling).** An argument `scaled` that is not known is found out at the first image only: a ValueError, after the objects
before it were written and, with `purge`, deleted. Without images nothing fails. -/
theorem C124_unknown (E : Env A I) (o : Options) (s : State A I) (ho : o.scaled = .other) :
    (∀ pre n post item, s.index = pre ++ n :: post → n ∉ pre → s.attrs n = some item → Image item →
      (∀ m item, m ∈ pre → s.attrs m = some item → ∃ fs, FilesOf E o m item fs ∧ ∀ f ∈ fs, E.opens f.1 = none) →
      ∃ s', dumpBrowse E o s = (s', some .valueError) ∧ (o.purge = true → ∀ m ∈ pre, s'.attrs m = none) ∧
        ∀ m item, m ∈ pre → s.attrs m = some item → ∀ fs, FilesOf E o m item fs → ∀ f ∈ fs, s'.disk f.1 ≠ none) ∧
    ∀ n item fs, s.attrs n = some item → FilesOf E o n item fs → ¬ Image item := by
  constructor
  · intro pre n post item hidx hnp hi him hpre
    obtain ⟨d, h1, h2, h3⟩ := dumpFrom_good E o pre s (fun m hm item hi => hpre m item hm hi)
    obtain ⟨dims, a, rfl, hd⟩ : ∃ dims a, item = .array true dims a ∧ dims.length ≠ 1 := by
      cases item with
      | array p dims a =>
        cases p with
        | true => exact ⟨dims, a, rfl, him⟩
        | false => exact him.elim
      | recarray _ _ | frame _ _ | none | xml _ | other _ => exact him.elim
    have hj : jobs E o n (.array true dims a) = [.error .valueError] := by
      unfold jobs
      simp only
      rw [if_pos hd, if_neg (by rw [ho]; simp), ho]
    unfold dumpBrowse
    rw [hidx, dumpFrom_append E o pre (n :: post) s _ h1]
    generalize hs1 : ({ s with disk := d, attrs := if o.purge then (fun m => if m ∈ pre then none else s.attrs m) else s.attrs } : State A I) = s1
    have hattr : s1.attrs n = some (.array true dims a) := by
      rw [← hs1, ← hi]
      cases o.purge <;> simp [hnp]
    simp only [dumpFrom, dumpOne, hattr, hj, perform]
    refine ⟨_, rfl, ?_, ?_⟩
    · intro hp m hm
      have hne : m ≠ n := fun he => hnp (he ▸ hm)
      rw [← hs1]
      simp [hp, hne, hm]
    · intro m item hm hi fs hfs f hf
      obtain ⟨m', -, g, -, -, hd⟩ := h3 m hm f ⟨item, fs, hi, hfs, hf⟩
      rw [← hs1]
      simp [hd]
  · intro n item fs hi hfs him
    cases hfs with
    | plain _ h _ => exact h him
    | scaled _ _ h => rw [ho] at h; cases h
    | unscaled _ _ h => rw [ho] at h; cases h
    | both _ _ h => rw [ho] at h; cases h
    | fits _ _ h => rw [ho] at h; rcases h with h | h <;> cases h

/-! ### examples -/

/-- arrays are numbers; a picture is the part that is drawn -/
def exEnv : Env Nat (Part × Nat) where
  render part _ a := .ok (part, a)
  scale _ _ a := .ok (10 * a)
  spoiled _ a := a
  opens _ := none
  fits := false
  outpath := c!"out"
  stem := c!"X"

/-- a product with an image, a table of two rows, a label, and an object that is not loaded -/
def exState : State Nat (Part × Nat) where
  index := [c!"IMAGE", c!"TABLE", c!"LABEL", c!"HEADER"]
  attrs n := if n = c!"IMAGE" then some (.array true [5, 2, 2] 7) else if n = c!"TABLE" then some (.frame 2 8) else
    if n = c!"LABEL" then some (.other 9) else none
  disk _ := none

theorem ex_clash : NoClash exState := by
  have hl : ∀ n, Loaded exState n → n = c!"IMAGE" ∨ n = c!"TABLE" ∨ n = c!"LABEL" := by
    rintro n ⟨-, h⟩
    by_contra hc
    simp only [not_or] at hc
    refine h ?_
    show (if n = c!"IMAGE" then _ else if n = c!"TABLE" then _ else if n = c!"LABEL" then _ else _) = _
    rw [if_neg hc.1, if_neg hc.2.1, if_neg hc.2.2]
  intro n m hn hm x hx h
  obtain ⟨a, w, rfl, -⟩ := ending_words hx
  have : '_' ∈ m := by rw [h]; simp
  rcases hl m hm with rfl | rfl | rfl <;> revert this <;> decide

/-- The image has five bands; the third is drawn, scaled. -/
theorem ex_image : FilesOf exEnv { purge := true } c!"IMAGE" (.array true [5, 2, 2] 7) [(c!"out/X_IMAGE.jpg", .picture (.band 2, 70))] :=
  .scaled (.there (by decide)) (by decide) rfl rfl
    (.bands (n := 5) (part := .band 2) rfl rfl
      (.middle rfl (.inl (by decide)) (by intro h; cases h) (by intro i h; cases h) (.inr ⟨rfl, .inl rfl⟩) (by decide)) rfl)

/-- hypotheses of `C123_dump` -/
example : ∃ s', dumpBrowse exEnv { purge := true } exState = (s', none) ∧ s'.disk c!"out/X_IMAGE.jpg" = some (.picture (.band 2, 70)) ∧
    s'.attrs c!"IMAGE" = none := by
  obtain ⟨s', h1, h2, -, -, -, h3⟩ := C123_dump exEnv { purge := true } exState (by decide) ex_clash (by
    intro n item hn hi
    have hj : ∃ fs : List (Str × Content Nat (Part × Nat)), FilesOf exEnv { purge := true } n item fs := by
      simp only [exState, List.mem_cons, List.not_mem_nil, or_false] at hn
      rcases hn with rfl | rfl | rfl | rfl
      · cases hi
        exact ⟨_, ex_image⟩
      · cases hi
        exact ⟨[(c!"out/X_TABLE.csv", .rows 8)], (jobs_iff ..).1 rfl⟩
      · cases hi
        exact ⟨[(c!"out/X_LABEL.txt", .text 9)], (jobs_iff ..).1 rfl⟩
      · cases hi
    obtain ⟨fs, hfs⟩ := hj
    exact ⟨fs, hfs, fun _ _ => rfl⟩)
  exact ⟨s', h1, h2 c!"IMAGE" _ _ (by decide) rfl ex_image _ List.mem_cons_self, (h3 rfl).1 _ (by decide)⟩

/-- a run that fails (hypothesis of `C123_stops`, and of `C124_unknown`) -/
example : ∃ s', dumpBrowse exEnv { scaled := .other } exState = (s', some .valueError) :=
  ⟨_, rfl⟩

/-- two objects that clash (hypotheses of `C124_clash`): the picture of `A`'s second band is lost -/
example : ∃ s', dumpBrowse exEnv { bandIx := .burst }
      { index := [c!"A", c!"A_1"], attrs := fun n => if n = c!"A" then some (.array true [2, 2, 2] 7) else if n = c!"A_1" then some (.array true [2, 2] 8) else none,
        disk := fun _ => none } = (s', none) ∧
    s'.disk c!"out/X_A_0.jpg" = some (.picture (.band 0, 70)) ∧ s'.disk c!"out/X_A_1.jpg" = some (.picture (.whole, 80)) :=
  ⟨_, rfl, rfl, rfl⟩

end Verif.Dump
