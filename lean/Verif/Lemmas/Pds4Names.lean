/-
Lemmas for PDS4 tables: the names of the columns.
-/
import Verif.Lemmas.Pds4Table
import Verif.Lemmas.Rename

namespace Verif.Pds4Table
open Verif.Py Verif.Pds4Table.Spec

/-! ### full names -/

/-- the name of a group in full names -/
def groupName (k : Nat) (g : Group) : Str := g.name.getD (c!"GROUP_" ++ natStr k)

/-- full names of fields with different names beside each other -/
def rel (k : Nat) : Forest → List Str
  | .nil => []
  | .field f rest => f.name :: rel k rest
  | .group g inner rest => (rel 0 inner).map (fun s => groupName k g ++ c!", " ++ s) ++ rel (k + 1) rest

theorem natStr_inj {i j : Nat} (h : natStr i = natStr j) : i = j := Pvl.toDigits_inj h

theorem natStr_digit {n : Nat} {c : Char} (h : c ∈ natStr n) : c.isDigit = true :=
  Nat.isDigit_of_mem_toDigits (by decide) (by decide) h

theorem natStr_ne (n : Nat) : natStr n ≠ [] := Nat.toDigits_ne_nil

/-- the items beside each other -/
theorem siblings_mem (F : Forest) (k : Nat) : ∀ x ∈ siblings (nameGroups k F),
    (x.1 = false ∧ x.2 ∈ fieldsHere F) ∨
    (x.1 = true ∧ (x.2 ∈ groupsHere F ∨ ∃ j, k ≤ j ∧ x.2 = c!"GROUP_" ++ natStr j)) := by
  induction F generalizing k with
  | nil => intro x hx; simp [nameGroups, siblings] at hx
  | field f F ih =>
    intro x hx
    simp only [nameGroups, siblings, List.mem_cons] at hx
    rcases hx with rfl | hx
    · exact .inl ⟨rfl, by simp [fieldsHere]⟩
    · rcases ih k x hx with ⟨h1, h2⟩ | ⟨h1, h2⟩
      · exact .inl ⟨h1, by simp [fieldsHere, h2]⟩
      · exact .inr ⟨h1, h2⟩
  | group g inner F _ ih =>
    intro x hx
    simp only [nameGroups, siblings, List.mem_cons, Option.getD_some] at hx
    rcases hx with rfl | hx
    · refine .inr ⟨rfl, ?_⟩
      cases hn : g.name with
      | none => exact .inr ⟨k, le_refl _, by simp⟩
      | some n => exact .inl (by simp [groupsHere, hn])
    · rcases ih (k + 1) x hx with ⟨h1, h2⟩ | ⟨h1, h2⟩
      · exact .inl ⟨h1, h2⟩
      · refine .inr ⟨h1, ?_⟩
        rcases h2 with h2 | ⟨j, hj, h2⟩
        · exact .inl (by simp [groupsHere, h2])
        · exact .inr ⟨j, by omega, h2⟩

theorem groupsHere_ok (F : Forest) (h : Named F) : ∀ n ∈ groupsHere F, NameOk n := by
  induction F with
  | nil => intro n hn; simp [groupsHere] at hn
  | field f F ih => exact ih h.2.2
  | group g inner F _ ih =>
    intro n hn
    simp only [groupsHere, List.mem_append, Option.mem_toList] at hn
    rcases hn with hn | hn
    · exact (h.1 n hn).1
    · exact ih h.2.2 n hn

theorem fieldsHere_ok (F : Forest) (h : Named F) : ∀ n ∈ fieldsHere F, NameOk n := by
  induction F with
  | nil => intro n hn; simp [fieldsHere] at hn
  | field f F ih =>
    intro n hn
    simp only [fieldsHere, List.mem_cons] at hn
    rcases hn with rfl | hn
    · exact h.1
    · exact ih h.2.2 n hn
  | group g inner F _ ih => exact ih h.2.2

theorem nameOk_group {n : Str} (h : NameOk n) (j : Nat) : n ≠ c!"GROUP_" ++ natStr j := by
  rintro rfl
  exact h.2.2.2.1 ⟨[], '_' :: natStr j, rfl⟩

theorem siblings_nodup (F : Forest) (k : Nat) (h : Named F) : (siblings (nameGroups k F)).Nodup := by
  induction F generalizing k with
  | nil => exact List.nodup_nil
  | field f F ih =>
    simp only [nameGroups, siblings, List.nodup_cons]
    refine ⟨fun hm => ?_, ih k h.2.2⟩
    rcases siblings_mem F k _ hm with ⟨-, h2⟩ | ⟨h1, -⟩
    · exact h.2.1 h2
    · cases h1
  | group g inner F _ ih =>
    simp only [nameGroups, siblings, List.nodup_cons, Option.getD_some]
    refine ⟨fun hm => ?_, ih (k + 1) h.2.2⟩
    rcases siblings_mem F (k + 1) _ hm with ⟨h1, -⟩ | ⟨-, h2⟩
    · cases h1
    · cases hn : g.name with
      | none =>
        simp only [hn, Option.getD_none] at h2
        rcases h2 with h2 | ⟨j, hj, h2⟩
        · exact nameOk_group (groupsHere_ok F h.2.2 _ h2) k rfl
        · have := natStr_inj (List.append_cancel_left h2)
          omega
      | some n =>
        simp only [hn, Option.getD_some] at h2
        rcases h2 with h2 | ⟨j, -, h2⟩
        · exact (h.1 n hn).2 h2
        · exact nameOk_group (h.1 n hn).1 j h2

theorem fullNames_eq (F : Forest) (k : Nat) (path : Str) (all before : List (Bool × Str)) (h : Named F)
    (hc : ∀ x ∈ siblings (nameGroups k F), all.count x ≤ 1) :
    fullNames path all before (nameGroups k F) = (rel k F).map (fun s => path ++ s) := by
  induction F generalizing k path all before with
  | nil => rfl
  | field f F ih =>
    simp only [nameGroups, siblings, List.mem_cons] at hc
    have h1 := hc _ (.inl rfl)
    simp only [nameGroups, fullNames, rel, List.map_cons]
    rw [ih k path all _ h.2.2 (fun x hx => hc x (.inr hx)), overlap, if_neg (by omega), List.append_nil]
  | group g inner F ih1 ih2 =>
    simp only [nameGroups, siblings, List.mem_cons, Option.getD_some] at hc
    have h1 := hc _ (.inl rfl)
    simp only [nameGroups, fullNames, rel, List.map_append, Option.getD_some]
    rw [ih2 (k + 1) path all _ h.2.2 (fun x hx => hc x (.inr hx)), ih1 0 _ _ _ h.2.1 (fun x _ =>
      List.nodup_iff_count_le_one.1 (siblings_nodup inner 0 h.2.1) x), overlap, if_neg (by omega), List.map_map]
    congr 1
    refine List.map_congr_left (fun s _ => ?_)
    simp [Function.comp, groupName]

/-- what full names look like -/
theorem rel_mem (F : Forest) (k : Nat) (h : Named F) : ∀ x ∈ rel k F,
    (x ∈ fieldsHere F ∧ ',' ∉ x) ∨ ∃ n y, (true, n) ∈ siblings (nameGroups k F) ∧ ',' ∉ n ∧ x = n ++ ',' :: y := by
  induction F generalizing k with
  | nil => intro x hx; simp [rel] at hx
  | field f F ih =>
    intro x hx
    simp only [rel, List.mem_cons] at hx
    rcases hx with rfl | hx
    · exact .inl ⟨by simp [fieldsHere], h.1.2.1⟩
    · rcases ih k h.2.2 x hx with ⟨h1, h2⟩ | ⟨n, y, h1, h2, h3⟩
      · exact .inl ⟨by simp [fieldsHere, h1], h2⟩
      · exact .inr ⟨n, y, by simp [nameGroups, siblings, h1], h2, h3⟩
  | group g inner F _ ih =>
    intro x hx
    simp only [rel, List.mem_append, List.mem_map] at hx
    rcases hx with ⟨y, -, rfl⟩ | hx
    · refine .inr ⟨groupName k g, ' ' :: y, by simp [nameGroups, siblings, groupName], ?_, by simp⟩
      unfold groupName
      cases hn : g.name with
      | none =>
        intro hm
        simp only [Option.getD_none, List.mem_append] at hm
        rcases hm with hm | hm
        · revert hm; decide
        · have := natStr_digit hm
          revert this; decide
      | some n => exact (h.1 n hn).1.2.1
    · rcases ih (k + 1) h.2.2 x hx with ⟨h1, h2⟩ | ⟨n, y, h1, h2, h3⟩
      · exact .inl ⟨h1, h2⟩
      · exact .inr ⟨n, y, by simp [nameGroups, siblings, h1], h2, h3⟩

theorem cut_unique {a b c d : Str} (ha : ',' ∉ a) (hb : ',' ∉ b) (h : a ++ ',' :: c = b ++ ',' :: d) : a = b := by
  have h1 : (a ++ ',' :: c).takeWhile (fun x => x ≠ ',') = a := by
    rw [List.takeWhile_append_of_pos (by intro x hx; simpa using fun e : x = ',' => ha (e ▸ hx))]
    simp
  have h2 : (b ++ ',' :: d).takeWhile (fun x => x ≠ ',') = b := by
    rw [List.takeWhile_append_of_pos (by intro x hx; simpa using fun e : x = ',' => hb (e ▸ hx))]
    simp
  rw [← h1, h, h2]

theorem groupName_comma {F : Forest} {g : Group} {inner : Forest} (k : Nat) (h : Named (.group g inner F)) : ',' ∉ groupName k g := by
  unfold groupName
  cases hn : g.name with
  | none =>
    intro hm
    simp only [Option.getD_none, List.mem_append] at hm
    rcases hm with hm | hm
    · revert hm; decide
    · have := natStr_digit hm
      revert this; decide
  | some n => exact (h.1 n hn).1.2.1

theorem rel_nodup (F : Forest) (k : Nat) (h : Named F) : (rel k F).Nodup := by
  induction F generalizing k with
  | nil => exact List.nodup_nil
  | field f F ih =>
    simp only [rel, List.nodup_cons]
    refine ⟨fun hm => ?_, ih k h.2.2⟩
    rcases rel_mem F k h.2.2 _ hm with ⟨h1, -⟩ | ⟨n, y, -, -, h3⟩
    · exact h.2.1 h1
    · exact h.1.2.1 (by rw [h3]; simp)
  | group g inner F ih1 ih2 =>
    simp only [rel]
    rw [List.nodup_append]
    refine ⟨List.Nodup.map (fun a b hab => List.append_cancel_left hab) (ih1 0 h.2.1), ih2 (k + 1) h.2.2, ?_⟩
    rintro x hx y hy rfl
    simp only [List.mem_map] at hx
    obtain ⟨s, -, rfl⟩ := hx
    rcases rel_mem F (k + 1) h.2.2 _ hy with ⟨-, h2⟩ | ⟨n, z, h1, h2, h3⟩
    · exact h2 (by simp)
    · have := cut_unique (groupName_comma k h) h2 (by simpa using h3 : groupName k g ++ ',' :: (' ' :: s) = n ++ ',' :: z)
      have hs := siblings_nodup (.group g inner F) k h
      simp only [nameGroups, siblings, List.nodup_cons, Option.getD_some] at hs
      exact hs.1 (by rw [show g.name.getD (c!"GROUP_" ++ natStr k) = n from this]; exact h1)

theorem numpyName_self (s : Str) (h : ':' ∉ s) : numpyName s = s := by
  unfold numpyName
  conv_rhs => rw [← List.map_id s]
  refine List.map_congr_left (fun c hc => ?_)
  rw [if_neg (fun e : c = ':' => h (e ▸ hc))]
  rfl

theorem rel_colon (F : Forest) (k : Nat) (h : Named F) : ∀ x ∈ rel k F, ':' ∉ x := by
  induction F generalizing k with
  | nil => intro x hx; simp [rel] at hx
  | field f F ih =>
    intro x hx
    simp only [rel, List.mem_cons] at hx
    rcases hx with rfl | hx
    · exact h.1.2.2.1
    · exact ih k h.2.2 x hx
  | group g inner F ih1 ih2 =>
    intro x hx
    simp only [rel, List.mem_append, List.mem_map] at hx
    rcases hx with ⟨y, hy, rfl⟩ | hx
    · intro hm
      simp only [List.mem_append] at hm
      rcases hm with (hm | hm) | hm
      · unfold groupName at hm
        cases hn : g.name with
        | none =>
          simp only [hn, Option.getD_none, List.mem_append] at hm
          rcases hm with hm | hm
          · revert hm; decide
          · have := natStr_digit hm
            revert this; decide
        | some n =>
          rw [hn] at hm
          exact (h.1 n hn).1.2.2.1 hm
      · revert hm; decide
      · exact ih1 0 h.2.1 y hy hm
    · exact ih2 (k + 1) h.2.2 x hx

/-! ### names of columns -/

/-- the name of a group, or the one made up for it -/
def Comp (g : Group) (w : Str) : Prop := g.name = some w ∨ (g.name = none ∧ ∃ j, w = c!"GROUP_" ++ natStr j)

/-- a full name: the groups and the field -/
def PathOf : List Group → Str → Str → Prop
  | [], f, x => x = f
  | g :: gs, f, x => ∃ w y, Comp g w ∧ x = w ++ c!", " ++ y ∧ PathOf gs f y

theorem rel_path (F : Forest) (k : Nat) (gs : List Group) :
    List.Forall₂ (fun p x => ∃ hs, p.2 = gs ++ hs ∧ PathOf hs p.1.name x) (leaves gs F) (rel k F) := by
  induction F generalizing k gs with
  | nil => exact .nil
  | field f F ih => exact .cons ⟨[], by simp, rfl⟩ (ih k gs)
  | group g inner F ih1 ih2 =>
    simp only [leaves, rel]
    refine List.rel_append ?_ (ih2 (k + 1) gs)
    rw [List.forall₂_map_right_iff]
    refine (ih1 0 (gs ++ [g])).imp ?_
    rintro p x ⟨hs, e, hp⟩
    refine ⟨g :: hs, by rw [e]; simp, groupName k g, x, ?_, rfl, hp⟩
    unfold groupName
    cases hn : g.name with
    | none => exact .inr ⟨hn, k, rfl⟩
    | some n => exact .inl hn

theorem matchGroup_len {s u : Str} (h : matchGroup s = some u) : u.length < s.length := by
  unfold matchGroup at h
  by_cases hp : c!"GROUP".isPrefixOf s = true
  · rw [if_pos hp] at h
    have hl := (List.isPrefixOf_iff_prefix.1 hp).length_le
    have h5 : (c!"GROUP" : Str).length = 5 := rfl
    obtain ⟨t, ht, h⟩ : ∃ t : Str, t.length ≤ (s.drop 5).length ∧
        (if (t.dropWhile Char.isDigit).length < t.length then some (t.dropWhile Char.isDigit) else none) = some u :=
      ⟨if (s.drop 5).head? = some '_' then (s.drop 5).tail else s.drop 5, by split <;> simp <;> omega, h⟩
    by_cases hlt : (t.dropWhile Char.isDigit).length < t.length
    · rw [if_pos hlt] at h
      simp only [Option.some.injEq] at h
      subst h
      simp only [List.length_drop] at ht
      omega
    · rw [if_neg hlt] at h
      cases h
  · rw [if_neg hp] at h
    cases h

theorem removeGroups_fuel : ∀ (m : Nat) (s : Str) (n k : Nat), s.length ≤ m → s.length ≤ n → s.length ≤ k →
    removeGroups n s = removeGroups k s := by
  intro m
  induction m with
  | zero =>
    intro s n k hm _ _
    obtain rfl := List.length_eq_zero_iff.1 (Nat.le_zero.1 hm)
    simp only [removeGroups]
  | succ m ih =>
    intro s n k hm hn hk
    cases s with
    | nil => simp only [removeGroups]
    | cons c cs =>
      obtain ⟨n, rfl⟩ : ∃ x, n = x + 1 := ⟨n - 1, by simp only [List.length_cons] at hn; omega⟩
      obtain ⟨k, rfl⟩ : ∃ x, k = x + 1 := ⟨k - 1, by simp only [List.length_cons] at hk; omega⟩
      simp only [List.length_cons] at hm hn hk
      simp only [removeGroups]
      cases hg : matchGroup (c :: cs) with
      | none => simp only; rw [ih cs n k (by omega) (by omega) (by omega)]
      | some u =>
        have := matchGroup_len hg
        simp only [List.length_cons] at this
        simp only
        rw [ih u n k (by omega) (by omega) (by omega)]

/-- the text without the names made up for groups -/
def clean (s : Str) : Str := removeGroups s.length s

theorem clean_cons {c : Char} {cs : Str} (h : matchGroup (c :: cs) = none) : clean (c :: cs) = c :: clean cs := by
  unfold clean
  rw [List.length_cons, removeGroups, h]

theorem clean_match {s u : Str} (h : matchGroup s = some u) : clean s = clean u := by
  have hl := matchGroup_len h
  cases s with
  | nil => simp at hl
  | cons c cs =>
    unfold clean
    rw [List.length_cons, removeGroups, h]
    simp only [List.length_cons] at hl
    exact removeGroups_fuel u.length u _ _ (le_refl _) (by omega) (le_refl _)

theorem matchGroup_none {s : Str} (h : c!"GROUP".isPrefixOf s = false) : matchGroup s = none := by
  unfold matchGroup
  rw [h]
  rfl

theorem prefix_short {p w t : Str} {c : Char} (hc : c ∉ p) (h : p.isPrefixOf (w ++ c :: t) = true) : p.isPrefixOf w = true := by
  induction p generalizing w with
  | nil => rfl
  | cons x p ih =>
    cases w with
    | nil =>
      simp only [List.nil_append, List.isPrefixOf, Bool.and_eq_true, beq_iff_eq] at h
      exact absurd (by simp [h.1]) hc
    | cons y w =>
      simp only [List.cons_append, List.isPrefixOf, Bool.and_eq_true, beq_iff_eq] at h ⊢
      exact ⟨h.1, ih (fun hm => hc (by simp [hm])) h.2⟩

theorem clean_name (w t : Str) (c : Char) (hc : c ∉ c!"GROUP") (h : ¬ c!"GROUP" <:+: w) : clean (w ++ c :: t) = w ++ c :: clean t := by
  induction w with
  | nil =>
    rw [List.nil_append, List.nil_append]
    refine clean_cons (matchGroup_none ?_)
    by_contra hp
    have := prefix_short (w := []) hc (by simpa using hp)
    revert this; decide
  | cons x w ih =>
    rw [List.cons_append, List.cons_append, clean_cons, ih (fun hi => h (hi.trans (List.infix_cons (List.infix_refl w))))]
    refine matchGroup_none ?_
    by_contra hp
    have := prefix_short (w := x :: w) hc (by simpa using hp)
    exact h ((List.isPrefixOf_iff_prefix.1 this).isInfix)

theorem clean_last (w : Str) (h : ¬ c!"GROUP" <:+: w) : clean w = w := by
  induction w with
  | nil => rfl
  | cons x w ih =>
    rw [clean_cons, ih (fun hi => h (hi.trans (List.infix_cons (List.infix_refl w))))]
    refine matchGroup_none ?_
    by_contra hp
    have hp' : c!"GROUP".isPrefixOf (x :: w) = true := by simpa using hp
    exact h ((List.isPrefixOf_iff_prefix.1 hp').isInfix)

theorem clean_digits (n : Nat) : clean (natStr n) = natStr n := by
  refine clean_last _ (fun h => ?_)
  have : 'G' ∈ natStr n := h.subset (by decide)
  have := natStr_digit this
  revert this; decide

theorem clean_group (j : Nat) (t : Str) : clean (c!"GROUP_" ++ natStr j ++ ',' :: t) = ',' :: clean t := by
  have hm : matchGroup (c!"GROUP_" ++ natStr j ++ ',' :: t) = some (',' :: t) := by
    unfold matchGroup
    rw [if_pos (by rw [List.append_assoc]; rfl)]
    have hd : (c!"GROUP_" ++ natStr j ++ ',' :: t).drop 5 = '_' :: (natStr j ++ ',' :: t) := by
      rw [List.append_assoc]; rfl
    simp only [hd, List.head?_cons, if_true, List.tail_cons]
    have he : (natStr j ++ ',' :: t).dropWhile Char.isDigit = ',' :: t := by
      rw [List.dropWhile_append_of_pos (fun c hc => natStr_digit hc)]
      rfl
    rw [he]
    have := List.length_pos_iff.2 (natStr_ne j)
    rw [if_pos (by simp only [List.length_append]; omega)]
  rw [clean_match hm]
  refine clean_cons (matchGroup_none rfl)

/-- the names joined -/
def joined (gs : List Group) (f : Str) : Str := join c!", " (gs.map (fun g => g.name.getD []) ++ [f])

theorem joined_cons (g : Group) (gs : List Group) (f : Str) : joined (g :: gs) f = g.name.getD [] ++ c!", " ++ joined gs f := by
  unfold joined
  cases gs <;> simp [join]

theorem clean_path (gs : List Group) (f x tail : Str) (hp : PathOf gs f x) (hg : ∀ g ∈ gs, ∀ n, g.name = some n → NameOk n)
    (hf : clean (f ++ tail) = f ++ tail) : clean (x ++ tail) = joined gs f ++ tail := by
  induction gs generalizing x with
  | nil =>
    have hx : x = f := hp
    subst hx
    exact hf
  | cons g gs ih =>
    obtain ⟨w, y, hw, rfl, hy⟩ := hp
    have ih' := ih y hy (fun g hg' => hg g (by simp [hg']))
    rw [joined_cons]
    have e : w ++ c!", " ++ y ++ tail = w ++ ',' :: (' ' :: (y ++ tail)) := by simp
    have hs : clean (' ' :: (y ++ tail)) = ' ' :: clean (y ++ tail) := clean_cons (matchGroup_none rfl)
    rw [e]
    rcases hw with hw | ⟨hw, j, rfl⟩
    · have hn := hg g (by simp) w hw
      rw [clean_name w _ ',' (by decide) hn.2.2.2.1, hs, ih', hw]
      simp
    · rw [clean_group, hs, ih', hw]
      simp

theorem stripComma_self (a s b : Str) (ha : ∀ c ∈ a, c = ',' ∨ c = ' ') (hb : b = [])
    (h1 : ∀ c, s.head? = some c → c ≠ ',' ∧ c ≠ ' ') (h2 : ∀ c, s.getLast? = some c → c ≠ ',' ∧ c ≠ ' ') (hne : s ≠ []) :
    stripComma (a ++ s ++ b) = s := by
  subst hb
  unfold stripComma
  simp only [List.append_nil]
  have e1 : (a ++ s).dropWhile (fun (c : Char) => c = ',' || c = ' ') = s := by
    rw [List.dropWhile_append_of_pos (by intro c hc; rcases ha c hc with rfl | rfl <;> rfl)]
    cases s with
    | nil => rfl
    | cons c s =>
      have := h1 c rfl
      rw [List.dropWhile_cons_of_neg (by simp [this.1, this.2])]
  rw [e1]
  have e2 : s.reverse.dropWhile (fun (c : Char) => c = ',' || c = ' ') = s.reverse := by
    cases hr : s.reverse with
    | nil => rfl
    | cons c r =>
      have hl : s.getLast? = some c := by rw [← List.head?_reverse, hr]; rfl
      have := h2 c hl
      rw [List.dropWhile_cons_of_neg (by simp [this.1, this.2])]
  rw [e2, List.reverse_reverse]

/-- names of groups that are not given, at the start, are dropped -/
theorem joined_drop (gs : List Group) (f : Str) :
    ∃ a, (∀ c ∈ a, c = ',' ∨ c = ' ') ∧ joined gs f = a ++ joined (gs.dropWhile (fun g => g.name.isNone)) f := by
  induction gs with
  | nil => exact ⟨[], by simp, rfl⟩
  | cons g gs ih =>
    cases hn : g.name with
    | none =>
      obtain ⟨a, h1, h2⟩ := ih
      refine ⟨c!", " ++ a, ?_, ?_⟩
      · intro c hc
        rcases List.mem_append.1 hc with hc | hc
        · simpa using hc
        · exact h1 c hc
      · rw [joined_cons, hn, List.dropWhile_cons_of_pos (by simp [hn]), h2]
        simp
    | some n => exact ⟨[], by simp, by rw [List.dropWhile_cons_of_neg (by simp [hn])]; rfl⟩

theorem joined_head (gs : List Group) (f : Str) (hf : NameOk f) (hg : ∀ g ∈ gs, ∀ n, g.name = some n → NameOk n)
    (h : ∀ g, gs.head? = some g → g.name ≠ none) : ∀ c, (joined gs f).head? = some c → c ≠ ',' ∧ c ≠ ' ' := by
  have key : ∀ n : Str, NameOk n → ∀ t c, (n ++ t).head? = some c → c ≠ ',' ∧ c ≠ ' ' := by
    intro n hn t c hc
    cases n with
    | nil => exact absurd rfl hn.1
    | cons x n =>
      simp only [List.cons_append, List.head?_cons, Option.some.injEq] at hc
      subst hc
      exact ⟨fun e => hn.2.1 (by simp [e]), fun e => hn.2.2.2.2.1 (by simp [e])⟩
  cases gs with
  | nil =>
    intro c hc
    exact key f hf [] c (by simpa [joined, join] using hc)
  | cons g gs =>
    cases hn : g.name with
    | none => exact absurd hn (h g rfl)
    | some n =>
      intro c hc
      rw [joined_cons, hn, List.append_assoc] at hc
      exact key n (hg g (by simp) n hn) _ c hc

theorem joined_last (gs : List Group) (f : Str) (hf : f ≠ []) : (joined gs f).getLast? = f.getLast? := by
  have : ∃ a, joined gs f = a ++ f := by
    induction gs with
    | nil => exact ⟨[], rfl⟩
    | cons g gs ih =>
      obtain ⟨a, ha⟩ := ih
      exact ⟨g.name.getD [] ++ c!", " ++ a, by rw [joined_cons, ha]; simp⟩
  obtain ⟨a, ha⟩ := this
  rw [ha, List.getLast?_append]
  cases hl : f.getLast? with
  | none => exact absurd (List.getLast?_eq_none_iff.1 hl) hf
  | some c => rfl

theorem joined_ne (gs : List Group) (f : Str) (hf : f ≠ []) : joined gs f ≠ [] := by
  intro h
  have := joined_last gs f hf
  rw [h] at this
  exact hf (List.getLast?_eq_none_iff.1 this.symm)

/-- the name of a column of a field outside of groups -/
theorem columnName_plain (f : Str) (hf : NameOk f) : columnName f = f := by
  unfold columnName
  rw [show removeGroups f.length f = f from clean_last f hf.2.2.2.1]
  have := stripComma_self [] f [] (by simp) rfl (by
    intro c hc
    exact ⟨fun e => hf.2.1 (e ▸ List.mem_of_mem_head? hc), fun e => hf.2.2.2.2.1 (e ▸ hc)⟩) (by
    intro c hc
    exact ⟨fun e => hf.2.1 (e ▸ List.mem_of_mem_getLast? hc), fun e => hf.2.2.2.2.2 (e ▸ hc)⟩) hf.1
  simpa using this

/-- the name of a column of a field in groups -/
theorem columnName_group (gs : List Group) (f x : Str) (k : Nat) (hp : PathOf gs f x) (hf : NameOk f)
    (hg : ∀ g ∈ gs, ∀ n, g.name = some n → NameOk n) :
    columnName (x ++ c!"_" ++ natStr k) =
      join c!", " (((gs.dropWhile (fun g => g.name.isNone)).map (fun g => g.name.getD [])) ++ [f]) ++ c!"_" ++ natStr k := by
  have hc : clean (x ++ (c!"_" ++ natStr k)) = joined gs f ++ (c!"_" ++ natStr k) := by
    refine clean_path gs f x _ hp hg ?_
    rw [List.singleton_append, clean_name f _ '_' (by decide) hf.2.2.2.1, clean_digits]
  obtain ⟨a, ha, hj⟩ := joined_drop gs f
  have hd : ∀ g ∈ gs.dropWhile (fun g => g.name.isNone), ∀ n, g.name = some n → NameOk n :=
    fun g hm => hg g ((List.dropWhile_suffix _).subset hm)
  have hh : ∀ g, (gs.dropWhile (fun g => g.name.isNone)).head? = some g → g.name ≠ none := by
    intro g hgh hn
    cases hl : gs.dropWhile (fun g => g.name.isNone) with
    | nil => rw [hl] at hgh; cases hgh
    | cons y ys =>
      rw [hl] at hgh
      simp only [List.head?_cons, Option.some.injEq] at hgh
      have := List.head_dropWhile_not (fun g : Group => g.name.isNone) (l := gs) (by rw [hl]; simp)
      simp only [hl, List.head_cons, hgh, hn] at this
      cases this
  unfold columnName
  rw [List.append_assoc x, show removeGroups (x ++ (c!"_" ++ natStr k)).length (x ++ (c!"_" ++ natStr k)) = _ from hc, hj, List.append_assoc a]
  have := stripComma_self a (joined (gs.dropWhile (fun g => g.name.isNone)) f ++ (c!"_" ++ natStr k)) [] ha rfl (by
    intro c hc
    refine joined_head _ f hf hd hh c ?_
    cases hjn : joined (gs.dropWhile (fun g => g.name.isNone)) f with
    | nil => exact absurd hjn (joined_ne _ f hf.1)
    | cons y ys => rw [hjn] at hc; simpa using hc) (by
    intro c hc
    rw [← List.append_assoc, List.getLast?_append] at hc
    cases hl : (natStr k).getLast? with
    | none => exact absurd (List.getLast?_eq_none_iff.1 hl) (natStr_ne k)
    | some d =>
      rw [hl] at hc
      simp only [Option.some_or, Option.some.injEq] at hc
      subst hc
      have := natStr_digit (List.mem_of_mem_getLast? hl)
      constructor <;> (rintro rfl; revert this; decide)) (by simp)
  rw [List.append_nil] at this
  rw [this, List.append_assoc]
  rfl

/-! ### tables with uniformly sampled fields -/

/-- the uniformly sampled fields before the others -/
def withUniform (us : List Uniform) (F : Forest) : Forest := us.foldr (fun u rest => Forest.field ⟨u.name, 0, 0, []⟩ rest) F

theorem withUniform_groups (us : List Uniform) (F : Forest) (k : Nat) : withUniform us (nameGroups k F) = nameGroups k (withUniform us F) := by
  induction us with
  | nil => rfl
  | cons u us ih =>
    show Forest.field _ (withUniform us _) = Forest.field _ (nameGroups k (withUniform us F))
    rw [ih]

theorem withUniform_rel (us : List Uniform) (F : Forest) (k : Nat) : rel k (withUniform us F) = us.map (·.name) ++ rel k F := by
  induction us with
  | nil => rfl
  | cons u us ih =>
    show u.name :: rel k (withUniform us F) = _
    rw [ih]
    rfl

theorem withUniform_here (us : List Uniform) (F : Forest) : fieldsHere (withUniform us F) = us.map (·.name) ++ fieldsHere F := by
  induction us with
  | nil => rfl
  | cons u us ih =>
    show u.name :: fieldsHere (withUniform us F) = _
    rw [ih]
    rfl

theorem withUniform_named (us : List Uniform) (F : Forest) (hF : Named F) (h1 : ∀ u ∈ us, NameOk u.name ∧ u.name ∉ fieldsHere F)
    (h2 : (us.map (·.name)).Nodup) : Named (withUniform us F) := by
  induction us with
  | nil => exact hF
  | cons u us ih =>
    simp only [List.map_cons, List.nodup_cons] at h2
    refine ⟨(h1 u (by simp)).1, ?_, ih (fun u hu => h1 u (by simp [hu])) h2.2⟩
    show u.name ∉ fieldsHere (withUniform us F)
    rw [withUniform_here, List.mem_append]
    rintro (h | h)
    · exact h2.1 h
    · exact (h1 u (by simp)).2 h

theorem fieldNames_eq (l : Label) (h : NamedTable l) :
    fieldNames l = l.uniform.map (·.name) ++ rel 0 l.body ∧ (fieldNames l).Nodup := by
  have hN := withUniform_named l.uniform l.body h.body h.uniform h.different
  have e : fieldNames l = rel 0 (withUniform l.uniform l.body) := by
    unfold fieldNames
    simp only
    rw [show (l.uniform.foldr (fun u rest => Forest.field ⟨u.name, 0, 0, []⟩ rest) (nameGroups 0 l.body)) =
      nameGroups 0 (withUniform l.uniform l.body) from withUniform_groups l.uniform l.body 0,
      fullNames_eq _ 0 [] _ _ hN (fun x _ => List.nodup_iff_count_le_one.1 (siblings_nodup _ 0 hN) x)]
    simp only [List.nil_append, List.map_id']
    conv_rhs => rw [← List.map_id (rel 0 (withUniform l.uniform l.body))]
    exact List.map_congr_left (fun s hs => numpyName_self s (rel_colon _ 0 hN s hs))
  exact ⟨by rw [e, withUniform_rel], by rw [e]; exact rel_nodup _ 0 hN⟩

/-- the names of the fields and groups around them are plain -/
theorem leaves_named (F : Forest) (gs : List Group) (h : Named F) (hg : ∀ g ∈ gs, ∀ n, g.name = some n → NameOk n) :
    ∀ p ∈ leaves gs F, NameOk p.1.name ∧ ∀ g ∈ p.2, ∀ n, g.name = some n → NameOk n := by
  induction F generalizing gs with
  | nil => intro p hp; simp [leaves] at hp
  | field f F ih =>
    intro p hp
    simp only [leaves, List.mem_cons] at hp
    rcases hp with rfl | hp
    · exact ⟨h.1, hg⟩
    · exact ih gs h.2.2 hg p hp
  | group g inner F ih1 ih2 =>
    intro p hp
    simp only [leaves, List.mem_append] at hp
    rcases hp with hp | hp
    · refine ih1 _ h.2.1 ?_ p hp
      intro g' hg' n hn
      rcases List.mem_append.1 hg' with hg' | hg'
      · exact hg g' hg' n hn
      · rw [List.mem_singleton] at hg'
        subst hg'
        exact (h.1 n hn).1
    · exact ih2 gs h.2.2 hg p hp

end Verif.Pds4Table
