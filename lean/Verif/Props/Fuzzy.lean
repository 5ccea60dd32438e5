/-
C138: finding metadata by names that are not exact.
-/
import Mathlib.Tactic.Linarith
import Mathlib.Tactic.Positivity
import Mathlib.Data.Rat.Lemmas
import Mathlib.Data.List.Sublists
import Verif.Spec.Fuzzy

namespace Verif.Fuzzy
open Verif.Py Verif.Pvl Spec
open scoped List

theorem lcs_common : ∀ a b : Str, Common a b (lcs a b)
  | [], b => by
    rw [lcs]
    refine ⟨⟨[], List.nil_sublist _, List.nil_sublist _, rfl⟩, fun l h _ => ?_⟩
    rw [List.sublist_nil.1 h]; exact Nat.le_refl _
  | a :: as, [] => by
    rw [lcs]
    refine ⟨⟨[], List.nil_sublist _, List.nil_sublist _, rfl⟩, fun l _ h => ?_⟩
    rw [List.sublist_nil.1 h]; exact Nat.le_refl _
  | a :: as, b :: bs => by
    rw [lcs]
    by_cases h : a = b
    · rw [if_pos h]
      subst h
      obtain ⟨⟨l, h1, h2, h3⟩, hm⟩ := lcs_common as bs
      refine ⟨⟨a :: l, h1.cons_cons a, h2.cons_cons a, by simp [h3]⟩, ?_⟩
      intro l' h1' h2'
      cases l' with
      | nil => simp
      | cons x l' =>
        have t1 : l' <+ as := by have := h1'.tail; simpa using this
        have t2 : l' <+ bs := by have := h2'.tail; simpa using this
        have := hm l' t1 t2
        simp only [List.length_cons]; omega
    · rw [if_neg h]
      obtain ⟨⟨l, h1, h2, h3⟩, hm⟩ := lcs_common (a :: as) bs
      obtain ⟨⟨l', h1', h2', h3'⟩, hm'⟩ := lcs_common as (b :: bs)
      refine ⟨?_, ?_⟩
      · rcases Nat.le_total (lcs (a :: as) bs) (lcs as (b :: bs)) with hl | hl
        · rw [Nat.max_eq_right hl]
          exact ⟨l', h1'.cons a, h2', h3'⟩
        · rw [Nat.max_eq_left hl]
          exact ⟨l, h1, h2.cons b, h3⟩
      · intro m s1 s2
        cases s1 with
        | cons _ s1 => exact Nat.le_trans (hm' m s1 s2) (Nat.le_max_right ..)
        | cons_cons _ s1 =>
          cases s2 with
          | cons _ s2 => exact Nat.le_trans (hm _ (s1.cons_cons a) s2) (Nat.le_max_left ..)
          | cons_cons _ s2 => exact absurd rfl h
termination_by a b => a.length + b.length

theorem common_unique {a b : Str} {n : Nat} (h : Common a b n) : n = lcs a b := by
  obtain ⟨⟨l, h1, h2, h3⟩, hm⟩ := h
  obtain ⟨⟨l', h1', h2', h3'⟩, hm'⟩ := lcs_common a b
  have := hm l' h1' h2'
  have := hm' l h1 h2
  omega

theorem lcs_le_left (a b : Str) : lcs a b ≤ a.length := by
  obtain ⟨⟨l, h1, _, h3⟩, _⟩ := lcs_common a b
  rw [← h3]; exact h1.length_le

theorem lcs_le_right (a b : Str) : lcs a b ≤ b.length := by
  obtain ⟨⟨l, _, h2, h3⟩, _⟩ := lcs_common a b
  rw [← h3]; exact h2.length_le

theorem lcs_self (a : Str) : lcs a a = a.length := by
  obtain ⟨_, hm⟩ := lcs_common a a
  exact Nat.le_antisymm (lcs_le_left a a) (hm a (List.Sublist.refl _) (List.Sublist.refl _))

theorem lcs_eq {a b : Str} (h : lcs a b * 2 = a.length + b.length) : a = b := by
  obtain ⟨⟨l, h1, h2, h3⟩, _⟩ := lcs_common a b
  have := lcs_le_left a b
  have := lcs_le_right a b
  rw [← h1.eq_of_length (by omega), ← h2.eq_of_length (by omega)]

theorem ratio_le {a b c : Str} (h : ratio a c ≤ ratio b c) :
    2 * lcs a c * (b.length + c.length) ≤ 2 * lcs b c * (a.length + c.length) := by
  have ha := lcs_le_left a c
  have ha' := lcs_le_right a c
  by_cases hb : b.length + c.length = 0
  · rw [hb]; simp
  · by_cases ha0 : a.length + c.length = 0
    · have : lcs a c = 0 := by omega
      rw [this]; simp
    · unfold ratio at h
      rw [if_neg ha0, if_neg hb] at h
      have h1 : (0 : Rat) < ((a.length + c.length : Nat) : Rat) := by exact_mod_cast Nat.pos_of_ne_zero ha0
      have h2 : (0 : Rat) < ((b.length + c.length : Nat) : Rat) := by exact_mod_cast Nat.pos_of_ne_zero hb
      rw [div_le_div_iff₀ h1 h2] at h
      exact_mod_cast h

theorem ratio_le_one (a b : Str) : ratio a b ≤ 1 := by
  unfold ratio
  split
  · exact le_refl _
  · rename_i h
    have h1 : (0 : Rat) < ((a.length + b.length : Nat) : Rat) := by exact_mod_cast Nat.pos_of_ne_zero h
    rw [div_le_one h1]
    have := lcs_le_left a b
    have := lcs_le_right a b
    exact_mod_cast (by omega : 2 * lcs a b ≤ a.length + b.length)

theorem ratio_one (a b : Str) : ratio a b = 1 ↔ a = b := by
  unfold ratio
  split
  · rename_i h
    have ha : a = [] := List.length_eq_zero_iff.1 (by omega)
    have hb : b = [] := List.length_eq_zero_iff.1 (by omega)
    simp [ha, hb]
  · rename_i h
    have h1 : ((a.length + b.length : Nat) : Rat) ≠ 0 := by exact_mod_cast h
    rw [div_eq_one_iff_eq h1]
    constructor
    · intro he
      have he : 2 * lcs a b = a.length + b.length := by exact_mod_cast he
      exact lcs_eq (by omega)
    · rintro rfl
      rw [lcs_self]
      exact_mod_cast (by omega : 2 * a.length = a.length + a.length)

theorem le_peak : ∀ (l : List Rat) (x : Rat), x ∈ l → x ≤ peak l
  | [], _, h => by cases h
  | [y], x, h => by rw [List.mem_singleton.1 h]; exact le_refl _
  | y :: z :: l, x, h => by
    rw [peak]
    · rcases List.mem_cons.1 h with rfl | h
      · exact le_max_left ..
      · exact le_trans (le_peak (z :: l) x h) (le_max_right ..)
    · intro h; cases h

theorem peak_mem : ∀ (l : List Rat), l ≠ [] → peak l ∈ l
  | [], h => absurd rfl h
  | [y], _ => List.mem_singleton.2 rfl
  | y :: z :: l, _ => by
    rw [peak]
    · rcases max_choice y (peak (z :: l)) with h | h
      · rw [h]; exact List.mem_cons_self ..
      · rw [h]; exact List.mem_cons_of_mem _ (peak_mem (z :: l) (by simp))
    · intro h; cases h

variable {α D K : Type} [DecidableEq K]

/-- **C138.** With names in the label, `metaget_fuzzy(text)` gives what `metaget` gives for one of its names, and
no name of the label is closer to the text. The order of the set of names may be any. -/
theorem C138_closest (e : Meta.Env α D K) (none : D) (s : Meta.State α D K) (names : List Str) (text : Str)
    (hn : Names names s.params) (h : s.params ≠ []) :
    ∃ k ∈ s.params, (∀ k' ∈ s.params, NotCloser k' k text) ∧
      metagetFuzzy e none names s text = Meta.metaget e s k none true := by
  have hne : names.map (fun k => ratio k text) ≠ [] := by
    intro he
    obtain ⟨p, hp⟩ := List.exists_mem_of_ne_nil _ h
    have := (hn.2 p).2 hp
    rw [List.map_eq_nil_iff.1 he] at this
    cases this
  obtain ⟨k0, hk0, hp0⟩ := List.mem_map.1 (peak_mem _ hne)
  unfold metagetFuzzy
  split
  · rename_i hf
    have := List.filter_eq_nil_iff.1 hf k0 hk0
    simp [hp0] at this
  · rename_i k ks hf
    have hk : k ∈ names.filter (fun k => decide (ratio k text = peak (names.map (fun k => ratio k text)))) := by
      rw [hf]; exact List.mem_cons_self ..
    obtain ⟨hk, hpk⟩ := List.mem_filter.1 hk
    have hpk : ratio k text = peak (names.map (fun k => ratio k text)) := of_decide_eq_true hpk
    refine ⟨k, (hn.2 k).1 hk, ?_, rfl⟩
    intro k' hk' n n' h1 h2
    rw [common_unique h1, common_unique h2]
    refine ratio_le ?_
    rw [hpk]
    exact le_peak _ _ (List.mem_map.2 ⟨k', (hn.2 k').2 hk', rfl⟩)

/-- **C138.** For a name of the label, `metaget_fuzzy` is `metaget`. -/
theorem C138_exact (e : Meta.Env α D K) (none : D) (s : Meta.State α D K) (names : List Str) (text : Str)
    (hn : Names names s.params) (h : text ∈ s.params) :
    metagetFuzzy e none names s text = Meta.metaget e s text none true := by
  have hm := (hn.2 text).2 h
  have h1 := (ratio_one text text).2 rfl
  have hle : 1 ≤ peak (names.map (fun k => ratio k text)) := le_peak _ _ (List.mem_map.2 ⟨text, hm, h1⟩)
  obtain ⟨k0, hk0, hp0⟩ := List.mem_map.1 (peak_mem (names.map (fun k => ratio k text)) (by
    intro he; rw [List.map_eq_nil_iff.1 he] at hm; cases hm))
  have hp : peak (names.map (fun k => ratio k text)) = 1 :=
    le_antisymm (by rw [← hp0]; exact ratio_le_one _ _) hle
  unfold metagetFuzzy
  rw [hp]
  split
  · rename_i hf
    have := List.filter_eq_nil_iff.1 hf text hm
    simp [h1] at this
  · rename_i k ks hf
    have hk : k ∈ names.filter (fun k => decide (ratio k text = 1)) := by
      rw [hf]; exact List.mem_cons_self ..
    rw [(ratio_one k text).1 (of_decide_eq_true (List.mem_filter.1 hk).2)]

/-- **C138.** A label without names: None, whatever the text. -/
theorem C138_none (e : Meta.Env α D K) (none : D) (s : Meta.State α D K) (names : List Str) (text : Str)
    (hn : Names names s.params) (h : s.params = []) :
    metagetFuzzy e none names s text = (s, .ok (.inr none), false) := by
  have : names = [] := by
    cases names with
    | nil => rfl
    | cons k ks =>
      have := (hn.2 k).1 (List.mem_cons_self ..)
      rw [h] at this
      cases this
  subst this
  rfl

/-! ### a case -/

example : Common c!"LINES" c!"LINE_SAMPLES" 5 := by
  have : lcs c!"LINES" c!"LINE_SAMPLES" = 5 := by simp +decide [lcs]
  rw [← this]; exact lcs_common _ _

/-- of LINES and BANDS, LINES is closest to LINE -/
example (e : Meta.Env Nat Unit Unit) (he : ∀ d, e.hashable d = true) (hv : ∀ a, e.isNone a = false) :
    (metagetFuzzy e () [c!"BANDS", c!"LINES"]
      { dict := [(c!"LINES", .leaf 5), (c!"BANDS", .leaf 3)], params := [c!"LINES", c!"BANDS"] } c!"LINE").2 =
        (.ok (.inl (.leaf 5)), false) := by
  have h1 : lcs c!"LINES" c!"LINE" = 4 := by simp +decide [lcs]
  have h2 : lcs c!"BANDS" c!"LINE" = 1 := by simp +decide [lcs]
  have r1 : ratio c!"LINES" c!"LINE" = 8 / 9 := by unfold ratio; rw [h1]; norm_num
  have r2 : ratio c!"BANDS" c!"LINE" = 2 / 9 := by unfold ratio; rw [h2]; norm_num
  unfold metagetFuzzy
  simp only [List.map_cons, List.map_nil, r1, r2, peak]
  have : max (2 / 9 : Rat) (8 / 9) = 8 / 9 := by norm_num
  rw [this]
  have f : List.filter (fun k => decide (ratio k c!"LINE" = 8 / 9)) [c!"BANDS", c!"LINES"] = [c!"LINES"] := by
    rw [List.filter_cons_of_neg (by rw [r2]; norm_num), List.filter_cons_of_pos (by rw [r1]; norm_num)]
    rfl
  rw [f]
  simp +decide [Meta.metaget, he, Meta.recall, Meta.interior, digValue, digValues, digValuesNested, hv]

end Verif.Fuzzy
