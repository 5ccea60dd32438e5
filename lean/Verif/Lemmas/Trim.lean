import Verif.Spec.Trim
import Mathlib.Tactic.ByContra

namespace Verif.Trim
open Verif.Trim.Spec

/-- `m` finds the longest prefix of kind `E`. -/
def Matches (m : Bytes → Option Nat) (E : Bytes → Prop) : Prop :=
  (∀ s n, m s = some n → ∃ w b, s = w ++ b ∧ E w ∧ w.length = n ∧
      ∀ w' b', s = w' ++ b' → E w' → w'.length ≤ n) ∧
  (∀ s, m s = none → ∀ w b, s = w ++ b → ¬ E w)

theorem crOrBlanks_some {s : Bytes} {n : Nat} (h : crOrBlanks s = some n) :
    (∃ b, s = 13 :: b ∧ n = 1) ∨ (∃ b, s = List.replicate 8 32 ++ b ∧ n = 8) := by
  unfold crOrBlanks at h
  split at h
  · rename_i h1
    rw [List.isPrefixOf_iff_prefix] at h1
    obtain ⟨b, rfl⟩ := h1
    exact .inl ⟨b, by simp, by simpa using h.symm⟩
  · split at h
    · rename_i h1
      rw [List.isPrefixOf_iff_prefix] at h1
      obtain ⟨b, rfl⟩ := h1
      exact .inr ⟨b, by simp, by simpa using h.symm⟩
    · cases h

theorem blankThen_some {m : Bytes → Option Nat} {s : Bytes} {n : Nat} (h : blankThen m s = some n) :
    ∃ t p, s = 32 :: t ∧ m t = some p ∧ n = p + 1 := by
  unfold blankThen at h
  split at h
  · rename_i b t
    split at h
    · rename_i hb; subst hb
      cases ht : m t with
      | none => simp [ht] at h
      | some p => exact ⟨t, p, rfl, ht, by simpa [ht] using h.symm⟩
    · cases h
  · cases h

theorem endTail_some (k : Nat) (s : Bytes) (n : Nat) (h : endTail k s = some n) :
    ∃ j, j ≤ k ∧ ((∃ b, s = List.replicate j 32 ++ 13 :: b ∧ n = j + 1) ∨
      (∃ b, s = List.replicate (j + 8) 32 ++ b ∧ n = j + 8)) := by
  induction k generalizing s n with
  | zero =>
    rw [endTail] at h
    exact ⟨0, Nat.le_refl 0, by simpa using crOrBlanks_some h⟩
  | succ k ih =>
    rw [endTail] at h
    split at h
    · rename_i m hm
      cases h
      obtain ⟨t, p, rfl, ht, rfl⟩ := blankThen_some hm
      obtain ⟨j, hj, hh⟩ := ih t p ht
      refine ⟨j + 1, by omega, ?_⟩
      rcases hh with ⟨b, rfl, rfl⟩ | ⟨b, rfl, rfl⟩
      · exact .inl ⟨b, by simp [List.replicate_succ], by omega⟩
      · exact .inr ⟨b, by simp [List.replicate_succ, show j + 1 + 8 = (j + 8) + 1 by omega], by omega⟩
    · exact ⟨0, by omega, by simpa using crOrBlanks_some h⟩

/-- completeness and maximality of `endTail` -/
theorem endTail_max (k : Nat) (s : Bytes) (j : Nat) (hj : j ≤ k) :
    ((∃ b, s = List.replicate j 32 ++ 13 :: b) → ∃ n, endTail k s = some n ∧ j + 1 ≤ n) ∧
    ((∃ b, s = List.replicate (j + 8) 32 ++ b) → ∃ n, endTail k s = some n ∧ j + 8 ≤ n) := by
  induction k generalizing s j with
  | zero =>
    obtain rfl : j = 0 := by omega
    constructor
    · rintro ⟨b, rfl⟩
      exact ⟨1, by simp [endTail, crOrBlanks], by omega⟩
    · rintro ⟨b, rfl⟩
      refine ⟨8, ?_, by omega⟩
      simp [endTail, crOrBlanks, List.replicate_succ]
  | succ k ih =>
    cases j with
    | succ j =>
      constructor
      · rintro ⟨b, rfl⟩
        obtain ⟨n, hn, hn'⟩ := (ih (List.replicate j 32 ++ 13 :: b) j (by omega)).1 ⟨b, rfl⟩
        exact ⟨n + 1, by simp [endTail, blankThen, List.replicate_succ, hn], by omega⟩
      · rintro ⟨b, rfl⟩
        obtain ⟨n, hn, hn'⟩ := (ih (List.replicate (j + 8) 32 ++ b) j (by omega)).2 ⟨b, rfl⟩
        refine ⟨n + 1, ?_, by omega⟩
        rw [show j + 1 + 8 = (j + 8) + 1 by omega, List.replicate_succ]
        simp only [endTail, blankThen, List.cons_append, if_pos, hn, Option.map_some]
    | zero =>
      constructor
      · rintro ⟨b, rfl⟩
        exact ⟨1, by simp [endTail, blankThen, crOrBlanks], by omega⟩
      · rintro ⟨b, rfl⟩
        rw [endTail]
        split
        · rename_i m hm
          refine ⟨m, rfl, ?_⟩
          obtain ⟨t, p, hs, ht, rfl⟩ := blankThen_some hm
          simp only [Nat.zero_add, List.replicate_succ, List.cons_append, List.cons.injEq, true_and] at hs
          obtain ⟨i, hi, hh⟩ := endTail_some _ _ _ ht
          rcases hh with ⟨b', hb, rfl⟩ | ⟨b', hb, rfl⟩
          · have : 7 ≤ i := by
              by_contra hlt
              have hc := congrArg (fun l => l[i]?) (hs.trans hb)
              simp only [List.getElem?_append_right (by simp : (List.replicate i (32:UInt8)).length ≤ i)] at hc
              have : i = 0 ∨ i = 1 ∨ i = 2 ∨ i = 3 ∨ i = 4 ∨ i = 5 ∨ i = 6 := by omega
              rcases this with rfl | rfl | rfl | rfl | rfl | rfl | rfl <;> simp at hc
            omega
          · omega
        · refine ⟨8, ?_, by omega⟩
          simp [crOrBlanks, List.replicate_succ]

theorem matchPvl_spec : Matches matchPvl PvlEnding := by
  constructor
  · intro s n h
    unfold matchPvl at h
    split at h
    · rename_i h1
      rw [List.isPrefixOf_iff_prefix] at h1
      obtain ⟨t, rfl⟩ := h1
      have hd : List.drop 4 (nlEnd ++ t) = t := rfl
      rw [hd] at h
      cases ht : endTail 8 t with
      | none => simp [ht] at h
      | some p =>
        simp only [ht, Option.map_some, Option.some.injEq] at h
        subst h
        have hmax : ∀ w' b', nlEnd ++ t = w' ++ b' → PvlEnding w' → w'.length ≤ p + 4 := by
          intro w' b' he hw
          rcases hw with ⟨k, hk, rfl⟩ | ⟨k, hk, hk', rfl⟩
          · simp only [nlEnd, List.cons_append, List.nil_append, List.cons.injEq, true_and, List.append_assoc] at he
            obtain ⟨n, hn, hn'⟩ := (endTail_max 8 t k hk).1 ⟨_, he⟩
            rw [ht] at hn; cases hn
            simp; omega
          · simp only [nlEnd, List.cons_append, List.nil_append, List.cons.injEq, true_and] at he
            obtain ⟨n, hn, hn'⟩ := (endTail_max 8 t (k - 8) (by omega)).2 ⟨b', by rw [show k - 8 + 8 = k by omega]; exact he⟩
            rw [ht] at hn; cases hn
            simp; omega
        obtain ⟨j, hj, hh⟩ := endTail_some _ _ _ ht
        rcases hh with ⟨b, rfl, rfl⟩ | ⟨b, rfl, rfl⟩
        · exact ⟨[10, 69, 78, 68] ++ List.replicate j 32 ++ [13], b, by simp [nlEnd], .inl ⟨j, hj, rfl⟩,
            by simp, hmax⟩
        · exact ⟨[10, 69, 78, 68] ++ List.replicate (j + 8) 32, b, by simp [nlEnd],
            .inr ⟨j + 8, by omega, by omega, rfl⟩, by simp, hmax⟩
    · cases h
  · intro s h w b hs hw
    have key : ∃ t, s = nlEnd ++ t ∧ ∃ n, endTail 8 t = some n := by
      rcases hw with ⟨k, hk, rfl⟩ | ⟨k, hk, hk', rfl⟩
      · refine ⟨List.replicate k 32 ++ 13 :: b, by simp [hs, nlEnd], ?_⟩
        obtain ⟨n, hn, -⟩ := (endTail_max 8 _ k hk).1 ⟨b, rfl⟩
        exact ⟨n, hn⟩
      · refine ⟨List.replicate k 32 ++ b, by simp [hs, nlEnd], ?_⟩
        obtain ⟨n, hn, -⟩ := (endTail_max 8 (List.replicate k 32 ++ b) (k - 8) (by omega)).2 ⟨b, by rw [show k - 8 + 8 = k by omega]⟩
        exact ⟨n, hn⟩
    obtain ⟨t, rfl, n, hn⟩ := key
    have hd : List.drop 4 (nlEnd ++ t) = t := rfl
    simp [matchPvl, hd, hn] at h


theorem matchConst_spec (w : Bytes) (n : Nat) (hn : w.length = n) :
    Matches (fun s => if w.isPrefixOf s then some n else none) (· = w) := by
  constructor
  · intro s m h
    simp only at h
    split at h
    · rename_i h1
      rw [List.isPrefixOf_iff_prefix] at h1
      obtain ⟨t, rfl⟩ := h1
      cases h
      exact ⟨w, t, rfl, rfl, hn, fun w' b' _ h => by rw [h]; omega⟩
    · cases h
  · rintro s h w' b hs rfl
    simp only at h
    split at h
    · cases h
    · rename_i h1
      exact h1 (by rw [List.isPrefixOf_iff_prefix]; exact ⟨b, hs.symm⟩)

theorem searchEnd_spec {m : Bytes → Option Nat} {E : Bytes → Prop} (hm : Matches m E) (s : Bytes) :
    (∀ e, searchEnd m s = some e → FirstEnd E s e) ∧ (searchEnd m s = none → Absent E s) := by
  induction s with
  | nil =>
    rw [searchEnd]
    cases h : m [] with
    | some n =>
      refine ⟨?_, by simp⟩
      intro e he
      simp only [Option.some.injEq] at he; subst he
      obtain ⟨w, b, hs, hw, hl, hmax⟩ := hm.1 _ _ h
      refine ⟨w, hw, ⟨[], b, by simpa using hs, by simp [hl]⟩, ?_⟩
      rintro w' e' hw' ⟨a, b', hs', rfl⟩
      have : a = [] := by
        cases a with
        | nil => rfl
        | cons x a => simp at hs'
      subst this
      have := hmax w' b' (by simpa using hs') hw'
      simp; omega
    | none =>
      refine ⟨by simp, ?_⟩
      rintro - w e hw ⟨a, b, hs, -⟩
      have : a = [] := by
        cases a with
        | nil => rfl
        | cons x a => simp at hs
      subst this
      exact hm.2 _ h w b (by simpa using hs) hw
  | cons c t ih =>
    rw [searchEnd]
    cases h : m (c :: t) with
    | some n =>
      refine ⟨?_, by simp⟩
      intro e he
      simp only [Option.some.injEq] at he; subst he
      obtain ⟨w, b, hs, hw, hl, hmax⟩ := hm.1 _ _ h
      refine ⟨w, hw, ⟨[], b, by simpa using hs, by simp [hl]⟩, ?_⟩
      rintro w' e' hw' ⟨a, b', hs', rfl⟩
      refine ⟨by omega, ?_⟩
      intro ha
      have : a = [] := List.eq_nil_of_length_eq_zero (by omega)
      subst this
      have := hmax w' b' (by simpa using hs') hw'
      omega
    | none =>
      simp only
      constructor
      · intro e he
        cases hse : searchEnd m t with
        | none => simp [hse] at he
        | some e0 =>
          simp only [hse, Option.map_some, Option.some.injEq] at he
          subst he
          obtain ⟨w, hw, ⟨a, b, hs, he0⟩, hmin⟩ := ih.1 e0 hse
          refine ⟨w, hw, ⟨c :: a, b, by simp [hs], by simp; omega⟩, ?_⟩
          rintro w' e' hw' ⟨a', b', hs', rfl⟩
          cases a' with
          | nil => exact absurd hw' (hm.2 _ h w' b' (by simpa using hs'))
          | cons x a' =>
            simp only [List.cons_append, List.cons.injEq] at hs'
            have := hmin w' _ hw' ⟨a', b', hs'.2, rfl⟩
            simp only [List.length_cons]
            omega
      · intro he
        have hse : searchEnd m t = none := by simpa using he
        rintro w e hw ⟨a, b, hs, -⟩
        cases a with
        | nil => exact hm.2 _ h w b (by simpa using hs) hw
        | cons x a =>
          simp only [List.cons_append, List.cons.injEq] at hs
          exact ih.2 hse w _ hw ⟨a, b, hs.2, rfl⟩

end Verif.Trim

namespace Verif.Trim
open Verif.Trim.Spec

theorem firstEnding_none {c : Bytes} (h : firstEnding knownEndings c = none) : Absent Ending c := by
  simp only [firstEnding, knownEndings] at h
  split at h
  · cases h
  rename_i h1
  split at h
  · cases h
  rename_i h2
  split at h
  · cases h
  rename_i h3
  have a1 := (searchEnd_spec matchPvl_spec c).2 h1
  have a2 := (searchEnd_spec (matchConst_spec [0, 0, 0] 3 rfl) c).2 h2
  have a3 := (searchEnd_spec (matchConst_spec [10, 69, 78, 68, 10] 5 rfl) c).2 h3
  rintro w e (hw | hw | hw)
  · exact a1 w e hw
  · exact a2 w e hw
  · exact a3 w e hw

theorem firstEnding_some {c : Bytes} {e : Nat} (h : firstEnding knownEndings c = some e) :
    WindowEnd c e := by
  simp only [firstEnding, knownEndings] at h
  have s1 := searchEnd_spec matchPvl_spec c
  have s2 := searchEnd_spec (matchConst_spec [0, 0, 0] 3 rfl) c
  have s3 := searchEnd_spec (matchConst_spec [10, 69, 78, 68, 10] 5 rfl) c
  split at h
  · rename_i h1; cases h; exact .inl (s1.1 _ h1)
  rename_i h1
  split at h
  · rename_i h2; cases h; exact .inr (.inl ⟨s1.2 h1, s2.1 _ h2⟩)
  rename_i h2
  split at h
  · rename_i h3; cases h; exact .inr (.inr ⟨s1.2 h1, s2.2 h2, s3.1 _ h3⟩)
  cases h

theorem Spec.FirstEnd.unique {E : Bytes → Prop} {c : Bytes} {e e' : Nat} (h : FirstEnd E c e)
    (h' : FirstEnd E c e') : e = e' := by
  obtain ⟨w, hw, ho, hm⟩ := h
  obtain ⟨w', hw', ho', hm'⟩ := h'
  have h1 := hm _ _ hw' ho'
  have h2 := hm' _ _ hw ho
  obtain ⟨a, b, -, rfl⟩ := ho
  obtain ⟨a', b', -, rfl⟩ := ho'
  simp only [Nat.add_sub_cancel] at h1 h2
  have : a.length = a'.length := Nat.le_antisymm h1.1 h2.1
  have := h1.2 this
  have := h2.2 (by omega)
  omega

theorem Spec.FirstEnd.not_absent {E : Bytes → Prop} {c : Bytes} {e : Nat} (h : FirstEnd E c e)
    (h' : Absent E c) : False := by
  obtain ⟨w, hw, ho, -⟩ := h
  exact h' w e hw ho

theorem Spec.WindowEnd.unique {c : Bytes} {e e' : Nat} (h : WindowEnd c e) (h' : WindowEnd c e') :
    e = e' := by
  rcases h with h | ⟨a, h⟩ | ⟨a, b, h⟩ <;> rcases h' with h' | ⟨a', h'⟩ | ⟨a', b', h'⟩ <;>
  first
  | exact h.unique h'
  | exact (h.not_absent (by assumption)).elim
  | exact (h'.not_absent (by assumption)).elim

theorem Spec.WindowEnd.ending {c : Bytes} {e : Nat} (h : WindowEnd c e) :
    ∃ w, Ending w ∧ OccursAt w c e := by
  rcases h with h | ⟨-, h⟩ | ⟨-, -, h⟩ <;> obtain ⟨w, hw, ho, -⟩ := h
  · exact ⟨w, .inl hw, ho⟩
  · exact ⟨w, .inr (.inl hw), ho⟩
  · exact ⟨w, .inr (.inr hw), ho⟩

theorem firstEnding_of_end {c : Bytes} {e : Nat} (h : WindowEnd c e) :
    firstEnding knownEndings c = some e := by
  cases h1 : firstEnding knownEndings c with
  | some e' => rw [(firstEnding_some h1).unique h]
  | none =>
    obtain ⟨w, hw, ho⟩ := h.ending
    exact (firstEnding_none h1 w e hw ho).elim

theorem firstEnding_of_absent {c : Bytes} (h : Absent Ending c) :
    firstEnding knownEndings c = none := by
  cases h1 : firstEnding knownEndings c with
  | none => rfl
  | some e =>
    obtain ⟨w, hw, ho⟩ := (firstEnding_some h1).ending
    exact (h w e hw ho).elim

theorem scan_found (maxSize : Int) (r : Bool) (i : Nat) : ∀ (L : Nat) (text rest : Bytes) (e : Nat),
    (∀ j < i, Absent Ending ((rest.drop (51200 * j)).take 51200)) →
    ((L + 51200 * i : Nat) : Int) < maxSize →
    WindowEnd ((rest.drop (51200 * i)).take 51200) e →
    scan maxSize r L text rest = .ok (text ++ rest.take (51200 * i + e)) := by
  induction i with
  | zero =>
    intro L text rest e _ hL he
    have hne : rest ≠ [] := by
      rintro rfl
      obtain ⟨w, hw, a, b, h, rfl⟩ := he.ending
      simp at h
      rcases hw with hw | hw | hw
      · rcases hw with ⟨k, -, hw⟩ | ⟨k, -, -, hw⟩ <;> simp [h.2.1] at hw
      · simp [NulEnding, h.2.1] at hw
      · simp [LfEnding, h.2.1] at hw
    have hle : e ≤ 51200 := by
      obtain ⟨w, hw, a, b, h, rfl⟩ := he.ending
      have := congrArg List.length h
      simp at this
      omega
    rw [scan, if_pos (by simpa using hL), dif_neg hne]
    have := firstEnding_of_end he
    simp only [Nat.mul_zero, List.drop_zero] at this
    simp only [chunkSize, this, List.take_take, Nat.reduceMul]
    simp [Nat.min_eq_left hle]
  | succ i ih =>
    intro L text rest e ha hL he
    have hne : rest ≠ [] := by
      rintro rfl
      obtain ⟨w, hw, a, b, h, rfl⟩ := he.ending
      simp at h
      rcases hw with hw | hw | hw
      · rcases hw with ⟨k, -, hw⟩ | ⟨k, -, -, hw⟩ <;> simp [h.2.1] at hw
      · simp [NulEnding, h.2.1] at hw
      · simp [LfEnding, h.2.1] at hw
    have h0 := firstEnding_of_absent (ha 0 (by omega))
    simp only [Nat.mul_zero, List.drop_zero] at h0
    rw [scan, if_pos (by omega), dif_neg hne]
    simp only [chunkSize, Nat.reduceMul, h0]
    rw [ih (L + 51200) _ _ e]
    · rw [List.append_assoc, ← List.take_add]
      rw [show 51200 * (i + 1) + e = 51200 + (51200 * i + e) by omega]
    · intro j hj
      have := ha (j + 1) (by omega)
      rw [List.drop_drop]
      rwa [show 51200 * (j + 1) = 51200 + 51200 * j by omega] at this
    · omega
    · rw [List.drop_drop]
      rwa [show 51200 * (i + 1) = 51200 + 51200 * i by omega] at he

theorem scan_not_found (maxSize : Int) (r : Bool) : ∀ (n : Nat) (L : Nat) (text rest : Bytes),
    (∀ j < n, Absent Ending ((rest.drop (51200 * j)).take 51200)) →
    maxSize ≤ ((L + 51200 * n : Nat) : Int) →
    (∀ j < n, ((L + 51200 * j : Nat) : Int) < maxSize) →
    scan maxSize r L text rest = if r then .error .invalidLabel else .ok (text ++ rest.take (51200 * n)) := by
  intro n
  induction n with
  | zero =>
    intro L text rest _ h _
    rw [scan, if_neg (by omega)]
    simp
  | succ n ih =>
    intro L text rest ha h hlt
    have h0 := firstEnding_of_absent (ha 0 (by omega))
    have := hlt 0 (by omega)
    simp only [Nat.mul_zero, List.drop_zero] at h0
    rw [scan, if_pos (by omega)]
    by_cases hne : rest = []
    · rw [dif_pos hne, hne]; simp
    · rw [dif_neg hne]
      simp only [chunkSize, Nat.reduceMul, h0]
      rw [ih (L + 51200)]
      · rw [List.append_assoc, ← List.take_add,
          show 51200 * (n + 1) = 51200 + 51200 * n by omega]
      · intro j hj
        have := ha (j + 1) (by omega)
        rw [List.drop_drop]
        rwa [show 51200 * (j + 1) = 51200 + 51200 * j by omega] at this
      · omega
      · intro j hj
        have := hlt (j + 1) (by omega)
        omega

end Verif.Trim
