/-
C111, C112: the tables in FITS files.
-/
import Verif.Spec.FitsTable
import Verif.Props.Format
import Mathlib.Data.List.Forall2
import Mathlib.Data.List.Flatten

namespace Verif.FitsTable
open Verif.Py
open Verif.Bits (Order)
open Verif.FitsTable.Spec
open Verif.Format (reindexDupes numbered)

/-! ### elements -/

theorem means_swap (e : Elem) : means (some .little) (swap e) = means (some .big) e ∧ means (some .big) (swap e) = means (some .little) e := by
  simp [means, swap, List.map_map, Function.comp_def]

theorem enforced_order (native : Order) (a : Arr) : (enforced native a).order = none ∨ (enforced native a).order = some native := by
  unfold enforced
  split
  · rename_i h
    simpa [isNative] using h
  · exact Or.inr rfl

/-- swapping the bytes and calling them the other order does not change what the elements mean -/
theorem shows_nth (native : Order) (a : Arr) (name : Str) (k : Nat) (hk : ∀ r ∈ a.recs, k < r.length) :
    Shows ⟨name, (enforced native a).order, nth (enforced native a) k⟩ ⟨name, a, k⟩ := by
  refine ⟨rfl, ?_⟩
  unfold nth
  simp only [List.map_map, Function.comp_def]
  unfold enforced
  by_cases h : isNative native a.order = true
  · rw [if_pos h]
    refine List.map_congr_left (fun r hr => ?_)
    rw [List.getD_eq_getElem?_getD, List.getElem?_eq_getElem (hk r hr)]
    rfl
  · rw [if_neg h]
    simp only [List.map_map, Function.comp_def]
    refine List.map_congr_left (fun r hr => ?_)
    rw [List.getD_eq_getElem?_getD, List.getElem?_map, List.getElem?_eq_getElem (hk r hr)]
    simp only [Option.map_some, Option.getD_some, Option.some.injEq]
    cases ho : a.order with
    | none => exact absurd (by simp [isNative, ho]) h
    | some o =>
      cases o <;> cases native
      · exact absurd (by simp [isNative, ho]) h
      · exact (means_swap _).1
      · exact (means_swap _).2
      · exact absurd (by simp [isNative, ho]) h

theorem shows_plain (a : Arr) (name : Str) (hk : ∀ r ∈ a.recs, 0 < r.length) : Shows ⟨name, a.order, nth a 0⟩ ⟨name, a, 0⟩ := by
  refine ⟨rfl, ?_⟩
  unfold nth
  simp only [List.map_map, Function.comp_def]
  refine List.map_congr_left (fun r hr => ?_)
  rw [List.getD_eq_getElem?_getD, List.getElem?_eq_getElem (hk r hr)]
  rfl

/-! ### fields -/

theorem range_mul (n m : Nat) : List.range (n * m) = (List.range n).flatMap (fun i => (List.range m).map (fun j => i * m + j)) := by
  induction n with
  | zero => simp
  | succ n ih =>
    rw [Nat.succ_mul, List.range_add, ih, List.range_succ, List.flatMap_append]
    simp

/-- the columns for a field with several elements -/
theorem wanted_block (name : Str) (a : Arr) (h : Fits a) (hs : a.shape ≠ []) :
    wanted name a = (List.range (Image.prod a.shape)).map (fun k => ⟨numbered name k, a, k⟩) := by
  rcases h.shape with h | ⟨n, _, h⟩ | ⟨n, m, h⟩
  · exact absurd h hs
  · unfold wanted
    rw [h]
    simp [Image.prod, numbered]
  · unfold wanted
    rw [h]
    simp only [Image.prod, Nat.mul_one]
    rw [range_mul, List.map_flatMap]
    simp [List.map_map, Function.comp_def, numbered]

theorem wanted_single (name : Str) (a : Arr) (hs : a.shape = []) : wanted name a = [⟨name, a, 0⟩] := by
  unfold wanted; rw [hs]

theorem single_pos {a : Arr} (h : Fits a) (hs : a.shape = []) : ∀ r ∈ a.recs, 0 < r.length := by
  intro r hr
  rw [h.full r hr, hs]
  decide

theorem plain_shows (native : Order) (fs : List (Str × Arr)) (hf : ∀ f ∈ fs, Fits f.2) (hs : ∀ f ∈ fs, f.2.shape = []) :
    List.Forall₂ Shows (plainFrame native fs) (fs.flatMap (fun f => wanted f.1 f.2)) := by
  induction fs with
  | nil => exact .nil
  | cons f fs ih =>
    have e := hs f (List.mem_cons_self ..)
    rw [List.flatMap_cons, wanted_single _ _ e]
    refine .cons (shows_nth native f.2 f.1 0 (single_pos (hf f (List.mem_cons_self ..)) e)) ?_
    exact ih (fun g hg => hf g (List.mem_cons_of_mem _ hg)) (fun g hg => hs g (List.mem_cons_of_mem _ hg))

theorem forall₂_range {α β : Type} {R : α → β → Prop} {f : Nat → α} {g : Nat → β} {n : Nat} (h : ∀ k < n, R (f k) (g k)) :
    List.Forall₂ R ((List.range n).map f) ((List.range n).map g) := by
  rw [List.forall₂_map_left_iff, List.forall₂_map_right_iff]
  refine List.forall₂_same.2 (fun k hk => h k (List.mem_range.1 hk))

theorem block_shows (native : Order) (f : Str × Arr) (h : Fits f.2) (hs : f.2.shape ≠ []) :
    ∃ b, blockFrame native f = .ok b ∧ List.Forall₂ Shows b (wanted f.1 f.2) ∧
      ∀ c ∈ b, c.order = none ∨ c.order = some native := by
  unfold blockFrame
  rw [if_neg (by rcases h.shape with h | ⟨n, _, h⟩ | ⟨n, m, h⟩ <;> rw [h] <;> simp)]
  refine ⟨_, rfl, ?_, ?_⟩
  · rw [wanted_block _ _ h hs]
    refine forall₂_range (fun k hk => shows_nth native f.2 _ k (fun r hr => ?_))
    rw [h.full r hr]
    exact hk
  · intro c hc
    obtain ⟨k, _, rfl⟩ := List.mem_map.1 hc
    exact enforced_order native f.2

theorem plain_order (native : Order) (fs : List (Str × Arr)) : ∀ c ∈ plainFrame native fs, c.order = none ∨ c.order = some native := by
  intro c hc
  obtain ⟨f, _, rfl⟩ := List.mem_map.1 hc
  exact enforced_order native f.2

theorem frames_show (native : Order) (fs : List (Str × Arr)) : ∀ buffer : List (Str × Arr), (∀ f ∈ buffer ++ fs, Fits f.2) →
    (∀ f ∈ buffer, f.2.shape = []) → ∃ dfs, frames native buffer fs = .ok dfs ∧
      List.Forall₂ Shows dfs.flatten ((buffer ++ fs).flatMap (fun f => wanted f.1 f.2)) ∧
      (∀ c ∈ dfs.flatten, c.order = none ∨ c.order = some native) ∧ (buffer ++ fs ≠ [] → dfs ≠ []) := by
  induction fs with
  | nil =>
    intro buffer hf hs
    unfold frames
    refine ⟨_, rfl, ?_⟩
    cases buffer with
    | nil => exact ⟨.nil, by simp, by simp⟩
    | cons b bs =>
      rw [List.append_nil]
      simp only [List.isEmpty_cons, Bool.false_eq_true, if_false, List.flatten_cons, List.flatten_nil, List.append_nil]
      exact ⟨plain_shows native _ (by simpa using hf) hs, plain_order native _, by simp⟩
  | cons f fs ih =>
    intro buffer hf hs
    unfold frames
    by_cases e : f.2.shape = []
    · rw [if_pos e]
      have := ih (buffer ++ [f]) (by simpa using hf) (by
        intro g hg
        rcases List.mem_append.1 hg with hg | hg
        · exact hs g hg
        · rw [List.mem_singleton.1 hg]; exact e)
      simpa using this
    · rw [if_neg e]
      obtain ⟨b, hb, h1, h2⟩ := block_shows native f (hf f (by simp)) e
      obtain ⟨dfs, hd, h3, h4, _⟩ := ih [] (fun g hg => hf g (by simp at hg ⊢; tauto)) (by simp)
      rw [hb, hd]
      refine ⟨_, rfl, ?_, ?_, by simp⟩
      · rw [List.flatMap_append, List.flatMap_cons, List.flatten_append, List.flatten_cons]
        refine List.rel_append (show List.Forall₂ Shows _ _ from ?_) (List.rel_append (show List.Forall₂ Shows _ _ from h1) h3)
        cases buffer with
        | nil => exact .nil
        | cons x xs =>
          simp only [List.isEmpty_cons, Bool.false_eq_true, if_false, List.flatten_cons, List.flatten_nil, List.append_nil]
          exact plain_shows native _ (fun g hg => hf g (List.mem_append_left _ hg)) hs
      · intro c hc
        rw [List.flatten_append, List.flatten_cons] at hc
        rcases List.mem_append.1 hc with hc | hc
        · cases buffer with
          | nil => simp at hc
          | cons x xs =>
            simp only [List.isEmpty_cons, Bool.false_eq_true, if_false, List.flatten_cons, List.flatten_nil, List.append_nil] at hc
            exact plain_order native _ c hc
        · rcases List.mem_append.1 hc with hc | hc
          · exact h2 c hc
          · exact h4 c hc

theorem leading_one {a : Arr} (h : Fits a) : (leading a).length = 1 := by
  unfold leading dtypeShape
  rcases h.shape with h | ⟨n, h1, h⟩ | ⟨n, m, h⟩
  · rw [h]; simp
  · rw [h, if_neg (by simpa using h1)]; simp
  · rw [h]; simp

/-- the names of the columns of a table (C27) -/
def names (binary : Bool) (ns : List Str) : List Str := if binary then reindexDupes ns else ns

/-- **C111.** -/
theorem C111_tables (native : Order) (binary nested : Bool) (ns : List Str) (arrs : List Arr) (hlen : ns.length = arrs.length)
    (hne : arrs ≠ []) (hfits : ∀ a ∈ arrs, Fits a) (hplain : nested = false → ∀ a ∈ arrs, a.shape = [])
    (hnames : (if binary then reindexDupes ns else ns).Nodup) :
    ∃ cols, readTable native binary nested ns arrs = .ok cols ∧
      List.Forall₂ Shows cols (((if binary then reindexDupes ns else ns).zip arrs).flatMap (fun f => wanted f.1 f.2)) ∧
      (binary = true ∨ nested = true → ∀ c ∈ cols, c.order = none ∨ c.order = some native) := by
  unfold readTable
  simp only [hnames, not_true_eq_false, if_false]
  have hl : (if binary then reindexDupes ns else ns).length = arrs.length := by
    rw [← hlen]; split
    · exact Format.C27_length ns
    · rfl
  generalize (if binary then reindexDupes ns else ns) = xs at hnames hl ⊢
  have hf : ∀ f ∈ xs.zip arrs, Fits f.2 := fun f h => hfits f.2 (List.of_mem_zip (a := f.1) (b := f.2) h).2
  have hz : xs.zip arrs ≠ [] := by
    intro e
    have := congrArg List.length e
    rw [List.length_zip, hl] at this
    simp at this
    exact hne this
  have hm : (xs.zip arrs).map (·.1) = xs := List.map_fst_zip (by omega)
  unfold convert
  cases nested with
  | true =>
    rw [if_pos rfl, if_neg (by
      simp only [List.any_eq_true, decide_eq_true_eq, not_exists, not_and]
      intro f h
      rcases (hf f h).shape with h | ⟨n, _, h⟩ | ⟨n, m, h⟩ <;> rw [h] <;> simp)]
    have e : fromArrays (xs.zip arrs) = .ok (xs.zip arrs) := by
      unfold fromArrays
      rw [if_neg (by rw [hm]; simpa using hnames), if_pos]
      rw [List.all_eq_true]
      intro f h
      simpa using leading_one (hf f h)
    rw [e]
    obtain ⟨dfs, h1, h2, h3, h4⟩ := frames_show native (xs.zip arrs) [] (by simpa using hf) (by simp)
    simp only [toFrame, h1]
    cases dfs with
    | nil => exact absurd rfl (h4 (by simpa using hz))
    | cons d ds => exact ⟨_, rfl, h2, fun _ => h3⟩
  | false =>
    have hs : ∀ f ∈ xs.zip arrs, f.2.shape = [] := fun f h => hplain rfl f.2 (List.of_mem_zip (a := f.1) (b := f.2) h).2
    rw [if_neg (by decide)]
    cases binary with
    | true => exact ⟨_, rfl, plain_shows native _ hf hs, fun _ => plain_order native _⟩
    | false =>
      refine ⟨_, rfl, ?_, by simp⟩
      generalize xs.zip arrs = fs at hf hs
      clear hm hz
      induction fs with
      | nil => exact .nil
      | cons f fs ih =>
        have e := hs f (List.mem_cons_self ..)
        rw [List.flatMap_cons, wanted_single _ _ e]
        exact .cons (shows_plain f.2 f.1 (single_pos (hf f (List.mem_cons_self ..)) e))
          (ih (fun g hg => hf g (List.mem_cons_of_mem _ hg)) (fun g hg => hs g (List.mem_cons_of_mem _ hg)))

/-! ### limits -/

/-- **C112 (elements of three dimensions).** -/
theorem C112_three_dimensions (native : Order) (binary : Bool) (ns : List Str) (arrs : List Arr) (hlen : ns.length = arrs.length)
    (hnames : (if binary then reindexDupes ns else ns).Nodup) (a : Arr) (ha : a ∈ arrs) (h3 : 3 ≤ a.shape.length) :
    readTable native binary true ns arrs = .error .notImplemented := by
  unfold readTable
  simp only [hnames, not_true_eq_false, if_false]
  unfold convert
  have hl : (if binary then reindexDupes ns else ns).length = arrs.length := by
    rw [← hlen]; split
    · exact Format.C27_length ns
    · rfl
  generalize (if binary then reindexDupes ns else ns) = xs at hl
  rw [if_pos rfl, if_pos]
  rw [List.any_eq_true]
  obtain ⟨i, hi, rfl⟩ := List.mem_iff_getElem.1 ha
  exact ⟨(xs[i]'(by omega), arrs[i]), List.mem_iff_getElem.2 ⟨i, by simp; omega, by simp⟩, by simp only [decide_eq_true_eq]; omega⟩

/-- **C112 (rows of one element).** -/
theorem C112_one_element (native : Order) (binary : Bool) (ns : List Str) (arrs : List Arr) (hlen : ns.length = arrs.length)
    (a : Arr) (ha : a ∈ arrs) (h1 : a.shape = [1]) :
    ∀ cols, readTable native binary true ns arrs ≠ .ok cols := by
  intro cols
  unfold readTable
  simp only
  have hl : (if binary then reindexDupes ns else ns).length = arrs.length := by
    rw [← hlen]; split
    · exact Format.C27_length ns
    · rfl
  generalize (if binary then reindexDupes ns else ns) = xs at hl
  split
  · simp
  · unfold convert
    rw [if_pos rfl]
    split
    · simp
    · have e : fromArrays (xs.zip arrs) = .error .valueError := by
        unfold fromArrays
        split
        · rfl
        · rw [if_neg]
          rw [List.all_eq_true]
          intro hall
          obtain ⟨i, hi, rfl⟩ := List.mem_iff_getElem.1 ha
          have := hall (xs[i]'(by omega), arrs[i]) (List.mem_iff_getElem.2 ⟨i, by simp; omega, by simp⟩)
          simp [leading, dtypeShape, h1] at this
      rw [e]
      simp

/-- **C112 (names).** A field `A` with elements and another field named `A_k` give two columns named `A_k`. -/
theorem C112_same_names (native : Order) (binary : Bool) (ns : List Str) (arrs : List Arr) (hlen : ns.length = arrs.length)
    (hfits : ∀ a ∈ arrs, Fits a) (hnames : (if binary then reindexDupes ns else ns).Nodup)
    (i j : Nat) (hi : i < ns.length) (hj : j < ns.length) (n k : Nat) (hshape : arrs[i].shape = [n]) (hk : k < n)
    (hsingle : arrs[j].shape = [])
    (hname : (names binary ns)[j]? = (names binary ns)[i]?.map (fun x => x ++ c!"_" ++ natStr k)) :
    ∃ cols, readTable native binary true ns arrs = .ok cols ∧ ¬ (cols.map (·.name)).Nodup := by
  obtain ⟨cols, h, hsh, hord⟩ := C111_tables native binary true ns arrs hlen (by rintro rfl; rw [List.length_nil] at hlen; omega) hfits (by simp) hnames
  refine ⟨cols, h, ?_⟩
  have e : cols.map (·.name) = (((if binary then reindexDupes ns else ns).zip arrs).flatMap (fun f => wanted f.1 f.2)).map (·.name) := by
    clear h hord
    generalize ((if binary then reindexDupes ns else ns).zip arrs).flatMap (fun f => wanted f.1 f.2) = ws at hsh
    induction hsh with
    | nil => rfl
    | cons h _ ih => exact congrArg₂ List.cons h.1 ih
  rw [e]
  have hl : (if binary then reindexDupes ns else ns).length = arrs.length := by
    rw [← hlen]; split
    · exact Format.C27_length ns
    · rfl
  unfold names at hname
  generalize (if binary then reindexDupes ns else ns) = xs at hl hname hnames
  rw [List.getElem?_eq_getElem (by omega), List.getElem?_eq_getElem (by omega)] at hname
  simp only [Option.map_some, Option.some.injEq] at hname
  rw [List.map_flatMap]
  intro hnd
  rw [List.nodup_flatMap] at hnd
  have hij : i ≠ j := by
    rintro rfl
    rw [hshape] at hsingle
    cases hsingle
  have hdis : ∀ p q : Nat, (hp : p < xs.length) → (hq : q < xs.length) → p < q →
      List.Disjoint ((wanted xs[p] arrs[p]).map (·.name)) ((wanted xs[q] arrs[q]).map (·.name)) := by
    intro p q hp hq hpq
    have := List.pairwise_iff_getElem.1 hnd.2 p q (by simp; omega) (by simp; omega) hpq
    simpa using this
  have m1 : (xs[i]'(by omega)) ++ c!"_" ++ natStr k ∈ (wanted (xs[i]'(by omega)) (arrs[i]'(by omega))).map (·.name) := by
    unfold wanted
    rw [hshape]
    simp only [List.map_map, List.mem_map, List.mem_range]
    exact ⟨k, hk, rfl⟩
  have m2 : (xs[i]'(by omega)) ++ c!"_" ++ natStr k ∈ (wanted (xs[j]'(by omega)) (arrs[j]'(by omega))).map (·.name) := by
    rw [wanted_single _ _ hsingle, hname]
    simp
  rcases Nat.lt_or_gt_of_ne hij with h | h
  · exact hdis i j (by omega) (by omega) h m1 m2
  · exact hdis j i (by omega) (by omega) h m2 m1

/-! ### an example -/

/-- a table of two records: TIME (a big-endian integer), POS (2 x 2 big-endian integers), TIME (a text) -/
def exNames : List Str := [c!"TIME", c!"POS", c!"TIME"]
def exArrs : List Arr :=
  [⟨some .big, [], [[[[1, 2]]], [[[3, 4]]]]⟩,
   ⟨some .big, [2, 2], [[[[0, 1]], [[0, 2]], [[0, 3]], [[0, 4]]], [[[0, 5]], [[0, 6]], [[0, 7]], [[0, 8]]]]⟩,
   ⟨none, [], [[[[65]]], [[[66]]]]⟩]

theorem ex_fits : ∀ a ∈ exArrs, Fits a := by
  intro a ha
  simp only [exArrs, List.mem_cons, List.not_mem_nil, or_false] at ha
  rcases ha with rfl | rfl | rfl
  · exact ⟨Or.inl rfl, by decide⟩
  · exact ⟨Or.inr (Or.inr ⟨2, 2, rfl⟩), by decide⟩
  · exact ⟨Or.inl rfl, by decide⟩

example : (names true exNames).Nodup := by decide

example : ∃ cols, readTable .little true true exNames exArrs = .ok cols ∧
    cols.map (·.name) = [c!"TIME_0", c!"POS_0", c!"POS_1", c!"POS_2", c!"POS_3", c!"TIME_1"] ∧
    cols.map (·.cells) = [[[[2, 1]], [[4, 3]]], [[[1, 0]], [[5, 0]]], [[[2, 0]], [[6, 0]]], [[[3, 0]], [[7, 0]]],
      [[[4, 0]], [[8, 0]]], [[[65]], [[66]]]] := ⟨_, rfl, by decide, by decide⟩

example : ∃ cols, readTable .little true true exNames exArrs = .ok cols ∧
    List.Forall₂ Shows cols (((reindexDupes exNames).zip exArrs).flatMap (fun f => wanted f.1 f.2)) :=
  (C111_tables .little true true exNames exArrs rfl (by decide) ex_fits (by decide) (by decide)).imp (fun _ h => ⟨h.1, h.2.1⟩)

end Verif.FitsTable
