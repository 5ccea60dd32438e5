/-
Lemmas about the names of HDUs.
-/
import Verif.Spec.Fits
import Verif.Lemmas.Pds4Names
import Mathlib.Data.List.Nodup
import Mathlib.Data.List.Perm.Basic
import Mathlib.Data.List.Forall2

namespace Verif.Fits
open Verif.Py Verif.Fits.Spec

/-! ### positions -/

/-- the positions of a name, counted from `k` on -/
def pos (k : Nat) (names : List Str) (x : Str) : List Nat := ((names.zipIdx k).filter (fun q => q.1 = x)).map (·.2)

theorem pos_nil (k : Nat) (x : Str) : pos k [] x = [] := rfl

theorem pos_cons (k : Nat) (n : Str) (names : List Str) (x : Str) :
    pos k (n :: names) x = if n = x then k :: pos (k + 1) names x else pos (k + 1) names x := by
  unfold pos
  rw [List.zipIdx_cons, List.filter_cons]
  by_cases h : n = x <;> simp [h]

theorem mem_pos (k : Nat) (names : List Str) (x : Str) (i : Nat) :
    i ∈ pos k names x ↔ k ≤ i ∧ names[i - k]? = some x := by
  induction names generalizing k with
  | nil => simp [pos_nil]
  | cons n ns ih =>
    rw [pos_cons]
    by_cases hi : i = k
    · subst hi
      by_cases h : n = x
      · simp [h]
      · simp [h, ih]
    · have h1 : k ≤ i ∧ (n :: ns)[i - k]? = some x ↔ k + 1 ≤ i ∧ ns[i - (k + 1)]? = some x := by
        constructor
        · rintro ⟨h1, h2⟩
          refine ⟨by omega, ?_⟩
          rw [show i - k = (i - (k + 1)) + 1 by omega] at h2
          simpa using h2
        · rintro ⟨h1, h2⟩
          refine ⟨by omega, ?_⟩
          rw [show i - k = (i - (k + 1)) + 1 by omega]
          simpa using h2
      rw [h1, ← ih]
      by_cases h : n = x
      · simp [h, hi]
      · simp [h]

theorem pos_sorted (k : Nat) (names : List Str) (x : Str) : (pos k names x).Pairwise (· < ·) := by
  induction names generalizing k with
  | nil => simp [pos_nil]
  | cons n ns ih =>
    rw [pos_cons]
    split
    · rw [List.pairwise_cons]
      refine ⟨fun i hi => ?_, ih _⟩
      have := (mem_pos _ _ _ _).mp hi
      omega
    · exact ih _

theorem pos_length (k : Nat) (names : List Str) (x : Str) : (pos k names x).length = names.count x := by
  induction names generalizing k with
  | nil => rfl
  | cons n ns ih =>
    rw [pos_cons, List.count_cons]
    by_cases h : n = x
    · simp [h, ih]
    · simp [h, ih]

theorem pos_rank (k : Nat) (names : List Str) (x : Str) (r i : Nat) (h : (pos k names x)[r]? = some i) :
    (names.take (i - k)).count x = r := by
  induction names generalizing k r with
  | nil => simp [pos_nil] at h
  | cons n ns ih =>
    rw [pos_cons] at h
    by_cases hn : n = x
    · rw [if_pos hn] at h
      cases r with
      | zero =>
        simp at h
        subst h
        simp
      | succ r =>
        simp only [List.getElem?_cons_succ] at h
        have hm := (mem_pos _ _ _ _).mp (List.mem_of_getElem? h)
        have := ih _ _ h
        rw [show i - k = (i - (k + 1)) + 1 by omega, List.take_succ_cons, List.count_cons]
        simp [hn, this]
    · rw [if_neg hn] at h
      have hm := (mem_pos _ _ _ _).mp (List.mem_of_getElem? h)
      have := ih _ _ h
      rw [show i - k = (i - (k + 1)) + 1 by omega, List.take_succ_cons, List.count_cons]
      simp [hn, this]

/-! ### keys -/

theorem mem_keysOf (names : List Str) (x : Str) : x ∈ keysOf names ↔ x ∈ names := by
  induction names with
  | nil => simp [keysOf]
  | cons n ns ih =>
    simp only [keysOf, List.mem_cons, List.mem_filter, ih, decide_eq_true_eq]
    by_cases h : x = n <;> simp [h]

theorem keysOf_sorted (names : List Str) : (keysOf names).Pairwise (fun x y => names.idxOf x < names.idxOf y) := by
  induction names with
  | nil => simp [keysOf]
  | cons n ns ih =>
    rw [keysOf, List.pairwise_cons]
    constructor
    · intro x hx
      have hx : n ≠ x := by
        have := of_decide_eq_true (List.mem_filter.mp hx).2
        exact fun h => this h.symm
      rw [List.idxOf_cons_self, List.idxOf_cons_ne _ hx]
      omega
    · have := ih.filter (fun m => decide (m ≠ n))
      refine this.imp_of_mem ?_
      intro x y hx hy h
      have hx : n ≠ x := by
        have := of_decide_eq_true (List.mem_filter.mp hx).2
        exact fun h => this h.symm
      have hy : n ≠ y := by
        have := of_decide_eq_true (List.mem_filter.mp hy).2
        exact fun h => this h.symm
      rw [List.idxOf_cons_ne _ hx, List.idxOf_cons_ne _ hy]
      omega

/-! ### the list of names -/

theorem groups_eq (names : List Str) : groups names = (keysOf names).map (fun n => (n, pos 0 names n)) := rfl

theorem listedOf_snd (g : Str × List Nat) : (listedOf g).map (·.2) = g.2 := by
  unfold listedOf
  split
  · next i h => simp [h]
  · rw [List.map_map]
    have : ((fun x : Str × Nat => x.2) ∘ fun q : Nat × Nat => (g.1 ++ c!"_" ++ natStr q.2, q.1)) = Prod.fst := by
      funext q; rfl
    rw [this, List.zipIdx_map_fst]

theorem listedOf_listed (names : List Str) (x n : Str) (i : Nat) (h : (n, i) ∈ listedOf (x, pos 0 names x)) :
    ListedAs names i n := by
  have hi : i ∈ pos 0 names x := by
    have := listedOf_snd (x, pos 0 names x)
    simp only at this
    rw [← this]
    exact List.mem_map_of_mem (f := (·.2)) h
  have hx := ((mem_pos _ _ _ _).mp hi).2
  rw [Nat.sub_zero] at hx
  have hc := pos_length 0 names x
  refine ⟨x, hx, ?_⟩
  unfold listedOf at h
  split at h
  · next j hj =>
    simp only at hj
    rw [hj] at hc
    simp at h
    exact .inl ⟨hc.symm, h.1⟩
  · next js hne =>
    simp only at hne
    obtain ⟨⟨i', r⟩, hq, heq⟩ := List.mem_map.mp h
    simp only [Prod.mk.injEq] at heq
    obtain ⟨rfl, rfl⟩ := heq
    have hr : (pos 0 names x)[r]? = some i' := by
      have := List.mk_mem_zipIdx_iff_getElem?.mp hq
      simpa using this
    have := pos_rank 0 names x r i' hr
    rw [Nat.sub_zero] at this
    refine .inr ⟨?_, by rw [this]⟩
    rcases Nat.lt_or_ge 1 (names.count x) with h1 | h1
    · exact h1
    · exfalso
      have hlen : (pos 0 names x).length = 1 := by
        have : 0 < (pos 0 names x).length := List.length_pos_of_mem hi
        omega
      obtain ⟨j, hj⟩ := List.length_eq_one_iff.mp hlen
      exact hne j hj

theorem hduMap_listed (names : List Str) (n : Str) (i : Nat) (h : (n, i) ∈ hduMap names) : ListedAs names i n := by
  unfold hduMap at h
  rw [groups_eq] at h
  obtain ⟨g, hg, h⟩ := List.mem_flatMap.mp h
  obtain ⟨x, _, rfl⟩ := List.mem_map.mp hg
  exact listedOf_listed names x n i h

theorem hduMap_snd (names : List Str) : (hduMap names).map (·.2) = (keysOf names).flatMap (pos 0 names) := by
  unfold hduMap
  rw [groups_eq, List.map_flatMap, List.flatMap_map]
  simp only [listedOf_snd]

theorem snd_sorted (names : List Str) : ((hduMap names).map (·.2)).Pairwise (Before names) := by
  rw [hduMap_snd, List.pairwise_flatMap]
  constructor
  · intro x _
    refine (pos_sorted 0 names x).imp_of_mem ?_
    intro i j hi hj hij
    have hi := ((mem_pos _ _ _ _).mp hi).2
    have hj := ((mem_pos _ _ _ _).mp hj).2
    exact ⟨x, x, by simpa using hi, by simpa using hj, .inr ⟨rfl, hij⟩⟩
  · refine (keysOf_sorted names).imp ?_
    intro x y hxy i hi j hj
    have hi := ((mem_pos _ _ _ _).mp hi).2
    have hj := ((mem_pos _ _ _ _).mp hj).2
    exact ⟨x, y, by simpa using hi, by simpa using hj, .inl hxy⟩

theorem before_ne {names : List Str} {i j : Nat} (h : Before names i j) : i ≠ j := by
  rintro rfl
  obtain ⟨x, y, hx, hy, h⟩ := h
  rw [hx] at hy
  cases hy
  rcases h with h | h <;> omega

theorem snd_nodup (names : List Str) : ((hduMap names).map (·.2)).Nodup :=
  (snd_sorted names).imp before_ne

theorem mem_snd (names : List Str) (i : Nat) : i ∈ (hduMap names).map (·.2) ↔ i < names.length := by
  rw [hduMap_snd, List.mem_flatMap]
  constructor
  · rintro ⟨x, _, hi⟩
    have := ((mem_pos _ _ _ _).mp hi).2
    rw [Nat.sub_zero] at this
    exact (List.getElem?_eq_some_iff.mp this).1
  · intro h
    refine ⟨names[i], (mem_keysOf _ _).mpr (List.getElem_mem h), (mem_pos _ _ _ _).mpr ⟨by omega, ?_⟩⟩
    simp [h]

theorem snd_perm (names : List Str) : ((hduMap names).map (·.2)).Perm (List.range names.length) := by
  rw [List.perm_ext_iff_of_nodup (snd_nodup names) List.nodup_range]
  intro i
  rw [mem_snd, List.mem_range]

/-- an HDU is listed by one name only -/
theorem listed_unique {names : List Str} {i : Nat} {n m : Str} (h1 : ListedAs names i n) (h2 : ListedAs names i m) : n = m := by
  obtain ⟨x, hx, h1⟩ := h1
  obtain ⟨y, hy, h2⟩ := h2
  rw [hx] at hy
  cases hy
  rcases h1 with ⟨a, b⟩ | ⟨a, b⟩ <;> rcases h2 with ⟨c, d⟩ | ⟨c, d⟩
  · rw [b, d]
  · omega
  · omega
  · rw [b, d]

theorem listed_lt {names : List Str} {i : Nat} {n : Str} (h : ListedAs names i n) : i < names.length := by
  obtain ⟨x, hx, _⟩ := h
  exact (List.getElem?_eq_some_iff.mp hx).1

theorem listed_mem {names : List Str} {i : Nat} {n : Str} (h : ListedAs names i n) : (n, i) ∈ hduMap names := by
  have hi := (mem_snd names i).mpr (listed_lt h)
  obtain ⟨⟨m, j⟩, hm, rfl⟩ := List.mem_map.mp hi
  rw [listed_unique h (hduMap_listed names m j hm)]
  exact hm

theorem listed_iff (names : List Str) (n : Str) (i : Nat) : (n, i) ∈ hduMap names ↔ ListedAs names i n :=
  ⟨hduMap_listed names n i, listed_mem⟩

theorem listed_exists {names : List Str} {i : Nat} (h : i < names.length) : ∃ n, ListedAs names i n := by
  have hi := (mem_snd names i).mpr h
  obtain ⟨⟨m, j⟩, hm, rfl⟩ := List.mem_map.mp hi
  exact ⟨m, hduMap_listed names m j hm⟩

/-! ### look-up -/

theorem lastOf_none {K A : Type} [DecidableEq K] {d : List (K × A)} {k : K} (h : ∀ a, (k, a) ∉ d) : lastOf d k = none := by
  unfold lastOf
  rw [Option.map_eq_none_iff, List.find?_eq_none]
  rintro ⟨k', a⟩ hm
  simp only [decide_eq_true_eq]
  rintro rfl
  exact h a (List.mem_reverse.mp hm)

theorem lastOf_mem {K A : Type} [DecidableEq K] {d : List (K × A)} {k : K} {a : A} (h : lastOf d k = some a) : (k, a) ∈ d := by
  unfold lastOf at h
  obtain ⟨⟨k', a'⟩, h1, h2⟩ := Option.map_eq_some_iff.mp h
  have h3 := List.find?_some h1
  have h4 := List.mem_of_find?_eq_some h1
  simp only [decide_eq_true_eq] at h3 h2
  subst h3 h2
  exact List.mem_reverse.mp h4

theorem lastOf_isSome {K A : Type} [DecidableEq K] {d : List (K × A)} {k : K} {a : A} (h : (k, a) ∈ d) : ∃ b, lastOf d k = some b := by
  cases hl : lastOf d k with
  | some b => exact ⟨b, rfl⟩
  | none =>
    exfalso
    unfold lastOf at hl
    rw [Option.map_eq_none_iff, List.find?_eq_none] at hl
    have := hl (k, a) (List.mem_reverse.mpr h)
    simp at this

theorem lastOf_unique {K A : Type} [DecidableEq K] {d : List (K × A)} {k : K} {a : A} (h : (k, a) ∈ d)
    (hu : ∀ b, (k, b) ∈ d → b = a) : lastOf d k = some a := by
  obtain ⟨b, hb⟩ := lastOf_isSome h
  rw [hb, hu b (lastOf_mem hb)]

theorem lastOf_append {K A : Type} [DecidableEq K] (c d : List (K × A)) (k : K) :
    lastOf (c ++ d) k = (lastOf d k).or (lastOf c k) := by
  unfold lastOf
  rw [List.reverse_append, List.find?_append]
  cases List.find? (fun e => decide (e.1 = k)) d.reverse <;> simp

/-- the last of those with the name -/
theorem lastOf_last {names : List Str} {n : Str} {j : Nat} (h : ListedAs names j n)
    (hl : ∀ i, ListedAs names i n → i = j ∨ Before names i j) : lastOf (hduMap names) n = some j := by
  obtain ⟨a, b, hab⟩ := List.append_of_mem (listed_mem h)
  have hs := snd_sorted names
  rw [hab] at hs ⊢
  rw [List.map_append, List.pairwise_append] at hs
  have hs2 := hs.2.1
  rw [List.map_cons, List.pairwise_cons] at hs2
  rw [lastOf_append, show (n, j) :: b = [(n, j)] ++ b from rfl, lastOf_append, lastOf_none (d := b)]
  · simp [lastOf]
  · intro i hi
    have hbi := hs2.1 i (List.mem_map_of_mem (f := (·.2)) hi)
    have hil : ListedAs names i n := hduMap_listed names n i (by rw [hab]; simp [hi])
    rcases hl i hil with rfl | h2
    · exact before_ne hbi rfl
    · obtain ⟨x, y, hx, hy, h3⟩ := hbi
      obtain ⟨x', y', hx', hy', h4⟩ := h2
      simp only at hx hy h3 h4
      rw [hx] at hy'
      rw [hy] at hx'
      cases hy'; cases hx'
      rcases h3 with h3 | h3 <;> rcases h4 with h4 | h4
      · omega
      · rw [h4.1] at h3; omega
      · rw [h3.1] at h4; omega
      · omega

end Verif.Fits
