/-
C84: FITS files.
-/
import Verif.Spec.Fits
import Verif.Lemmas.Fits
import Verif.Lemmas.Str
import Verif.Props.Load
import Verif.Props.Datatypes

namespace Verif.Fits
open Verif.Py Verif.Fits.Spec Verif.Load

variable {B : Type}

/-! ### headers -/

theorem here_eq (key : Str) (val : CardVal) (com : Str) :
    (if key.length = 0 then ([] : Header)
      else (key, itemOf val) :: (if 0 < com.length then [(key ++ c!"_comment", .text com)] else [])) =
    shown (.good key val com) := by
  unfold shown
  cases key <;> cases com <;> cases val <;> simp [itemOf]

theorem readHeader_skip (cards : List Card) : readHeader true cards = some (header cards) := by
  induction cards with
  | nil => rfl
  | cons c cs ih =>
    cases c with
    | bad =>
      simp only [readHeader, if_true, ih, header, List.flatMap_cons, shown, List.nil_append]
    | good key val com =>
      simp only [readHeader, ih, Option.map_some, header, List.flatMap_cons]
      rw [here_eq]

theorem readHeader_good (cards : List Card) (h : Card.bad ∉ cards) : readHeader false cards = some (header cards) := by
  induction cards with
  | nil => rfl
  | cons c cs ih =>
    have ih := ih (fun hm => h (List.mem_cons_of_mem _ hm))
    cases c with
    | bad => exact absurd (List.mem_cons_self ..) h
    | good key val com =>
      simp only [readHeader, ih, Option.map_some, header, List.flatMap_cons]
      rw [here_eq]

theorem readHeader_bad (cards : List Card) (h : Card.bad ∈ cards) : readHeader false cards = none := by
  induction cards with
  | nil => simp at h
  | cons c cs ih =>
    cases c with
    | bad => rfl
    | good key val com =>
      have h : Card.bad ∈ cs := by simpa using h
      simp only [readHeader, ih h, Option.map_none]

/-- **C84 (headers).** The header of an HDU lists its cards in order: keyword and value, then, under the
keyword followed by "_comment", the comment; cards without keyword are left out. Bad cards are an error, or are
left out. -/
theorem C84_header (cards : List Card) :
    readHeader true cards = some (header cards) ∧
    (Card.bad ∉ cards → readHeader false cards = some (header cards)) ∧
    (Card.bad ∈ cards → readHeader false cards = none) :=
  ⟨readHeader_skip cards, readHeader_good cards, readHeader_bad cards⟩

/-- the value of a card with this keyword -/
def valueFor (key : Str) : Card → Option Item
  | .bad => none
  | .good k v _ => if k = key then some (itemOf v) else none

/-- the comment of a card with this keyword -/
def commentFor (key : Str) : Card → Option Item
  | .bad => none
  | .good k _ c => if k = key ∧ c ≠ [] then some (.text c) else none

/-- **C84 (headers, by keyword).** If no keyword of the header ends in "_comment", then looking up a keyword in it gives the values of the cards
with this keyword, in order, and looking it up with "_comment" appended gives their comments. -/
theorem C84_header_lookup (cards : List Card) (hc : ∀ k v c, Card.good k v c ∈ cards → ¬ c!"_comment" <:+ k)
    (key : Str) (hk : key ≠ []) :
    (¬ c!"_comment" <:+ key → ((header cards).filter (fun q => q.1 = key)).map (·.2) = cards.filterMap (valueFor key)) ∧
    ((header cards).filter (fun q => q.1 = key ++ c!"_comment")).map (·.2) = cards.filterMap (commentFor key) := by
  induction cards with
  | nil => exact ⟨fun _ => rfl, rfl⟩
  | cons c cs ih =>
    have ih := ih (fun k v c h => hc k v c (List.mem_cons_of_mem _ h))
    have e : header (c :: cs) = shown c ++ header cs := rfl
    rw [e, List.filter_append, List.filter_append, List.map_append, List.map_append, ih.2]
    constructor
    · intro hs
      rw [ih.1 hs]
      cases c with
      | bad => rfl
      | good k v com =>
        rw [← here_eq]
        simp only [List.filterMap_cons, valueFor]
        by_cases h0 : k.length = 0
        · rw [if_pos h0, if_neg (by rintro rfl; exact hk (List.length_eq_zero_iff.mp h0))]
          rfl
        · rw [if_neg h0]
          have hne : k ++ c!"_comment" ≠ key := by rintro rfl; exact hs ⟨k, rfl⟩
          by_cases h1 : k = key <;> by_cases h2 : 0 < com.length <;>
            simp only [h1, h2, if_true, if_false, List.filter_cons, decide_true, decide_false, List.map_cons, List.map_nil,
              List.filter_nil, List.cons_append, List.nil_append, Bool.false_eq_true] <;>
            first
            | rfl
            | (rw [h1] at hne; simp only [hne, decide_false, Bool.false_eq_true, if_false]; rfl)
            | (simp only [hne, decide_false, Bool.false_eq_true, if_false]; rfl)
    · cases c with
      | bad => rfl
      | good k v com =>
        rw [← here_eq]
        have hkc := hc k v com (List.mem_cons_self ..)
        simp only [List.filterMap_cons, commentFor]
        by_cases h0 : k.length = 0
        · rw [if_pos h0, if_neg (by rintro ⟨rfl, _⟩; exact hk (List.length_eq_zero_iff.mp h0))]
          rfl
        · rw [if_neg h0]
          have hne : k ≠ key ++ c!"_comment" := by rintro h; exact hkc ⟨key, h.symm⟩
          rw [List.filter_cons, if_neg (by simp only [decide_eq_true_eq]; exact hne)]
          have hcl : (0 < com.length) ↔ com ≠ [] := List.length_pos_iff
          by_cases h1 : k = key <;> by_cases h2 : com = []
          · rw [if_neg (by simp [h2]), if_neg (by simp [h2])]; rfl
          · rw [if_pos (hcl.mpr h2), if_pos ⟨h1, h2⟩, h1]
            simp
          · rw [if_neg (by simp [h2]), if_neg (by simp [h2])]; rfl
          · rw [if_pos (hcl.mpr h2), if_neg (by simp [h1])]
            have : k ++ c!"_comment" ≠ key ++ c!"_comment" := fun h => h1 (List.append_cancel_right h)
            rw [List.filter_cons, if_neg (by simpa using this)]
            rfl

/-! ### opening -/

/-- the names of the HDUs of a file -/
abbrev names (f : File B) : List Str := f.hdus.map (·.name)

theorem mapM_option {A C : Type} (g : A → Option C) (l : List A) (r : List C) :
    l.mapM g = some r ↔ List.Forall₂ (fun a c => g a = some c) l r := by
  induction l generalizing r with
  | nil => cases r <;> simp
  | cons a l ih =>
    rw [List.mapM_cons]
    cases r with
    | nil =>
      cases h : g a <;> cases h2 : List.mapM g l <;> simp
    | cons c r =>
      rw [List.forall₂_cons, ← ih r]
      cases h : g a <;> cases h2 : List.mapM g l <;> simp

theorem forall₂_left {A C : Type} {R : A → C → Prop} {l : List A} {r : List C} (h : List.Forall₂ R l r) {a : A}
    (ha : a ∈ l) : ∃ c ∈ r, R a c := by
  induction h with
  | nil => simp at ha
  | @cons x y l r hxy _ ih =>
    rcases List.mem_cons.mp ha with rfl | ha
    · exact ⟨y, List.mem_cons_self .., hxy⟩
    · obtain ⟨c, h1, h2⟩ := ih ha
      exact ⟨c, List.mem_cons_of_mem _ h1, h2⟩

theorem metadata (f : File B) (entries : List (Str × Header)) (hr : unpack f = some entries) :
    ∃ order : List Nat, order.Perm (List.range f.hdus.length) ∧ order.Pairwise (Before (names f)) ∧
      List.Forall₂ (fun i e => ListedAs (names f) i e.1 ∧ ∃ h, f.hdus[i]? = some h ∧ e.2 = header h.cards) order entries := by
  refine ⟨(hduMap (names f)).map (·.2), ?_, snd_sorted _, ?_⟩
  · have := snd_perm (names f)
    rw [List.length_map] at this
    exact this
  · unfold unpack at hr
    rw [mapM_option] at hr
    rw [List.forall₂_map_left_iff]
    have h2 : ∀ q ∈ hduMap (names f), ListedAs (names f) q.2 q.1 := fun q hq => hduMap_listed _ _ _ hq
    generalize hduMap (names f) = l at hr h2
    induction hr with
    | nil => exact .nil
    | @cons q c l r hqc _ ih =>
      refine .cons ?_ (ih (fun q hq => h2 q (List.mem_cons_of_mem _ hq)))
      obtain ⟨x, hx, rfl⟩ := Option.map_eq_some_iff.mp hqc
      obtain ⟨h, hh, hx⟩ := Option.bind_eq_some_iff.mp hx
      refine ⟨h2 q (List.mem_cons_self ..), h, hh, ?_⟩
      by_cases hb : Card.bad ∈ h.cards
      · rw [readHeader_bad _ hb] at hx; cases hx
      · rw [readHeader_good _ hb] at hx; cases hx; rfl

/-- **C84 (names).** A FITS file is opened if and only if every card of every header can be read. Then its HDUs are listed each once, by their
names, numbered if several have the same name; in the order of the file, but those of the same name together. -/
theorem C84_names (f : File B) :
    ((openPrimary f).isSome ↔ ∀ h ∈ f.hdus, Card.bad ∉ h.cards) ∧
    ∀ s, openPrimary f = some s → (∀ n, s.attrs n = none) ∧
      ∃ order : List Nat, order.Perm (List.range f.hdus.length) ∧ order.Pairwise (Before (names f)) ∧
        List.Forall₂ (fun i n => ListedAs (names f) i n) order s.index := by
  constructor
  · unfold openPrimary unpack
    rw [Option.isSome_map]
    constructor
    · intro h x hx hb
      obtain ⟨i, hi⟩ := List.getElem?_of_mem hx
      obtain ⟨r, hr⟩ := Option.isSome_iff_exists.mp h
      rw [mapM_option] at hr
      have hl : i < (names f).length := by
        rw [List.length_map]; exact (List.getElem?_eq_some_iff.mp hi).1
      obtain ⟨n, hn⟩ := listed_exists hl
      obtain ⟨c, _, hc⟩ := forall₂_left hr (listed_mem hn)
      simp only at hc
      rw [hi, Option.bind_some, readHeader_bad _ hb] at hc
      cases hc
    · intro h
      have : ∀ l : List (Str × Nat), (∀ q ∈ l, q.2 < f.hdus.length) → (l.mapM (fun q =>
          (f.hdus[q.2]?.bind (fun h => readHeader false h.cards)).map (fun x => (q.1, x)))).isSome := by
        intro l hl
        induction l with
        | nil => rfl
        | cons q l ih =>
          have ih := ih (fun q hq => hl q (List.mem_cons_of_mem _ hq))
          obtain ⟨r, hr⟩ := Option.isSome_iff_exists.mp ih
          have hq := hl q (List.mem_cons_self ..)
          rw [List.mapM_cons, hr, List.getElem?_eq_getElem hq, Option.bind_some, readHeader_good _ (h _ (List.getElem_mem hq))]
          rfl
      refine this _ ?_
      intro q hq
      have := (mem_snd _ q.2).mp (List.mem_map_of_mem (f := (·.2)) hq)
      rw [List.length_map] at this
      exact this
  · intro s hs
    unfold openPrimary at hs
    obtain ⟨r, hr, rfl⟩ := Option.map_eq_some_iff.mp hs
    obtain ⟨order, h1, h2, h3⟩ := metadata f r hr
    refine ⟨fun n => rfl, order, h1, h2, ?_⟩
    simp only
    rw [List.forall₂_map_right_iff]
    exact h3.imp (fun _ _ h => h.1)

/-- **C84 (metadata).** The metadata of a FITS file are the headers of its HDUs, under the names they are listed by, in the same order. -/
theorem C84_metadata (f : File B) (entries : List (Str × Header)) (h : unpack f = some entries) :
    ∃ order : List Nat, order.Perm (List.range f.hdus.length) ∧ order.Pairwise (Before (names f)) ∧
      List.Forall₂ (fun i e => ListedAs (names f) i e.1 ∧ ∃ h, f.hdus[i]? = some h ∧ e.2 = header h.cards) order entries :=
  metadata f entries h

end Verif.Fits
