/-
Lemmas for PDS4 tables: the manifest, and where values are looked for.
-/
import Verif.Spec.Pds4Table
import Verif.Props.Pds4Array
import Verif.Props.Pds4Scale

namespace Verif.Pds4Table
open Verif.Py Verif.Bits Verif.Datatypes Verif.Image Verif.Table Verif.Table.Spec Verif.ImageFile Verif.ImageFile.Spec
  Verif.Pds4Array.Spec Verif.Literal.Spec Verif.Pds4Table.Spec

/-! ### the manifest -/

theorem parents_skip (l k : Nat) (h : l ≤ k) (F : Forest) (before : List Entry) :
    parents l ((manifest k F).reverse ++ before) = parents l before := by
  induction F generalizing k before with
  | nil => rfl
  | field f rest ih =>
    rw [manifest, List.reverse_cons, List.append_assoc, ih k h]
    simp only [List.singleton_append, parents]
  | group g inner rest ih1 ih2 =>
    rw [manifest, List.reverse_cons, List.reverse_append, List.append_assoc, List.append_assoc, ih2 k h, ih1 (k + 1) (by omega)]
    simp only [List.singleton_append, parents]
    rw [if_neg (by omega)]

theorem fieldsOf_manifest (l : Nat) (F : Forest) (before rest : List Entry) :
    fieldsOf before (manifest l F ++ rest) =
      leaves (parents l before).reverse F ++ fieldsOf ((manifest l F).reverse ++ before) rest := by
  induction F generalizing l before rest with
  | nil => rfl
  | field f F ih =>
    simp only [manifest, List.cons_append, fieldsOf, leaves]
    rw [ih, parents, List.reverse_cons, List.append_assoc]
    rfl
  | group g inner F ih1 ih2 =>
    have hp : parents (l + 1) (⟨l, .group g⟩ :: before) = g :: parents l before := by simp [parents]
    have hq : parents l ((manifest (l + 1) inner).reverse ++ (⟨l, .group g⟩ :: before)) = parents l before := by
      rw [parents_skip _ _ (by omega)]
      simp [parents]
    simp only [manifest, List.cons_append, fieldsOf, leaves]
    rw [List.append_assoc, ih1, ih2, hp, hq, List.reverse_cons, List.reverse_cons, List.reverse_append]
    simp only [List.append_assoc, List.singleton_append]

/-- the fields of the manifest are those of the label, each with its groups -/
theorem fields_eq (F : Forest) : fieldsOf [] (manifest 0 F) = leaves [] F := by
  have h := fieldsOf_manifest 0 F [] []
  rw [List.append_nil] at h
  rw [h]
  simp [parents, fieldsOf]

theorem validate_ok (l : Nat) (F : Forest) (h : ∀ g ∈ groups F, 1 ≤ g.repetitions ∧ g.repetitions ∣ g.length) (rest : List Entry) :
    validate (manifest l F ++ rest) = validate rest := by
  induction F generalizing l rest with
  | nil => rfl
  | field f F ih => exact ih l h rest
  | group g inner F ih1 ih2 =>
    have hg := h g (by simp [groups])
    have h0 : g.repetitions ≠ 0 := by omega
    have h2 : g.length % g.repetitions = 0 := Nat.mod_eq_zero_of_dvd hg.2
    simp only [manifest, List.cons_append, validate]
    rw [if_neg h0, if_neg (fun c => c h2), List.append_assoc, ih1 (l + 1) (fun g hg => h g (by simp [groups, hg])),
      ih2 l (fun g hg => h g (by simp [groups, hg]))]

theorem leaves_groups (F : Forest) (gs : List Group) : ∀ p ∈ leaves gs F, ∀ g ∈ p.2, g ∈ gs ∨ g ∈ groups F := by
  induction F generalizing gs with
  | nil => intro p hp; simp [leaves] at hp
  | field f F ih =>
    intro p hp g hg
    simp only [leaves, List.mem_cons] at hp
    rcases hp with rfl | hp
    · exact .inl hg
    · exact ih gs p hp g hg
  | group g' inner F ih1 ih2 =>
    intro p hp g hg
    simp only [leaves, List.mem_append] at hp
    rcases hp with hp | hp
    · rcases ih1 _ p hp g hg with h | h
      · simp only [List.mem_append, List.mem_singleton] at h
        rcases h with h | rfl
        · exact .inl h
        · exact .inr (by simp [groups])
      · exact .inr (by simp [groups, h])
    · rcases ih2 _ p hp g hg with h | h
      · exact .inl h
      · exact .inr (by simp [groups, h])

/-! ### positions -/

theorem positions_ravel (sh : List Nat) : (positions sh).map (ravel sh) = List.range (prod sh) := by
  induction sh with
  | nil => rfl
  | cons n sh ih =>
    rw [positions, prod]
    have hr : ∀ i, ((positions sh).map (fun p => i :: p)).map (ravel (n :: sh)) = (List.range (prod sh)).map (fun j => i * prod sh + j) := by
      intro i
      rw [← ih, List.map_map, List.map_map]
      rfl
    rw [List.map_flatMap]
    have : ∀ m, (List.range m).flatMap (fun i => (List.range (prod sh)).map (fun j => i * prod sh + j)) = List.range (m * prod sh) := by
      intro m
      induction m with
      | zero => simp
      | succ m ihm =>
        rw [List.range_succ, List.flatMap_append, ihm, Nat.succ_mul, List.range_add]
        simp
    rw [← this n]
    exact List.flatMap_congr (fun i _ => hr i)

theorem positions_within (sh : List Nat) : ∀ p ∈ positions sh, Within sh p := by
  induction sh with
  | nil => intro p hp; simp [positions] at hp; subst hp; exact .nil
  | cons n sh ih =>
    intro p hp
    simp only [positions, List.mem_flatMap, List.mem_range, List.mem_map] at hp
    obtain ⟨i, hi, q, hq, rfl⟩ := hp
    exact .cons hi (ih q hq)

theorem positions_length (sh : List Nat) : (positions sh).length = prod sh := by
  have := congrArg List.length (positions_ravel sh)
  simpa using this

theorem ravel_inj {sh p q : List Nat} (hp : Within sh p) (hq : Within sh q) (h : ravel sh p = ravel sh q) : p = q := by
  unfold Within at hp hq
  induction sh generalizing p q with
  | nil => cases hp; cases hq; rfl
  | cons n sh ih =>
    cases hp with
    | cons h1 h2 =>
      cases hq with
      | cons h3 h4 =>
        rename_i a as b bs
        rw [ravel, ravel] at h
        have l1 := ravel_lt sh as h2
        have l2 := ravel_lt sh bs h4
        have hP : 0 < prod sh := by omega
        have hab : a = b := by
          have e1 : (a * prod sh + ravel sh as) / prod sh = a := by
            rw [Nat.mul_comm, Nat.mul_add_div hP, Nat.div_eq_of_lt l1, Nat.add_zero]
          have e2 : (b * prod sh + ravel sh bs) / prod sh = b := by
            rw [Nat.mul_comm, Nat.mul_add_div hP, Nat.div_eq_of_lt l2, Nat.add_zero]
          rw [← e1, h, e2]
        subst hab
        rw [ih h2 h4 (by omega)]

/-- the position with number `ravel` -/
theorem positions_get (sh p : List Nat) (h : Within sh p) : (positions sh)[ravel sh p]? = some p := by
  have hlt := ravel_lt sh p h
  have hl := positions_length sh
  have hlt' : ravel sh p < (positions sh).length := by omega
  rw [List.getElem?_eq_getElem hlt']
  have hm := positions_within sh _ (List.getElem_mem hlt')
  have hr : ravel sh (positions sh)[ravel sh p] = ravel sh p := by
    have h1 : ((positions sh).map (ravel sh))[ravel sh p]? = some (ravel sh p) := by
      rw [positions_ravel, List.getElem?_range hlt]
    rw [List.getElem?_map, List.getElem?_eq_getElem hlt', Option.map_some, Option.some.injEq] at h1
    exact h1
  rw [ravel_inj hm h hr]

/-! ### extraction -/

theorem tight_bytes (len : Nat) (rs ls locs : List Nat) (ks : List Nat) (hl : rs.length = ls.length) (hl2 : locs.length = rs.length)
    (h0 : ∀ l ∈ locs, l = 0) (hlast : ls.getLast? = some len) (ht : tight rs ls = true) (hk : ks.length = rs.length) :
    groupBytes locs ls ks = len * ravel rs ks ∧ ls.headD 0 * rs.headD 0 = len * prod rs := by
  induction rs generalizing ls locs ks with
  | nil => cases ls with
    | nil => simp at hlast
    | cons => cases hl
  | cons r rs ih =>
    obtain ⟨l, ls, rfl⟩ : ∃ a b, ls = a :: b := by cases ls with | nil => cases hl | cons a b => exact ⟨a, b, rfl⟩
    obtain ⟨c, locs, rfl⟩ : ∃ a b, locs = a :: b := by cases locs with | nil => cases hl2 | cons a b => exact ⟨a, b, rfl⟩
    obtain ⟨k, ks, rfl⟩ : ∃ a b, ks = a :: b := by cases ks with | nil => cases hk | cons a b => exact ⟨a, b, rfl⟩
    have hc : c = 0 := h0 c (by simp)
    subst hc
    cases rs with
    | nil =>
      cases ls with
      | cons => simp at hl
      | nil =>
        simp only [List.getLast?_singleton, Option.some.injEq] at hlast
        subst hlast
        cases locs with
        | cons => simp at hl2
        | nil =>
          cases ks with
          | cons => simp at hk
          | nil => simp [groupBytes, ravel, prod]
    | cons r' rs =>
      obtain ⟨l', ls, rfl⟩ : ∃ a b, ls = a :: b := by cases ls with | nil => simp at hl | cons a b => exact ⟨a, b, rfl⟩
      simp only [tight, Bool.and_eq_true, decide_eq_true_eq] at ht
      rw [List.getLast?_cons_cons] at hlast
      have := ih (l' :: ls) locs ks (by simpa using hl) (by simpa using hl2) (fun x hx => h0 x (by simp [hx])) hlast ht.2 (by simpa using hk)
      obtain ⟨e1, e2⟩ := this
      simp only [List.headD_cons] at e2 ⊢
      have hl1 : l = len * prod (r' :: rs) := by rw [← ht.1, e2]
      constructor
      · rw [groupBytes, ravel, e1, hl1]
        ring
      · rw [hl1, prod]
        simp only [prod]
        ring

/-- all three ways to go through the values agree -/
theorem extract_eq (data : Bytes) (len loc L R : Nat) (rs locs ls : List Nat) (h1 : rs.length = ls.length) (h2 : locs.length = rs.length) :
    extract data len loc L R rs locs ls =
      (positions (R :: rs)).map (fun p => slice data (L * p.headD 0 + loc + groupBytes locs ls p.tail) len) := by
  unfold extract
  by_cases h : rs = []
  · subst h
    rw [if_pos rfl]
    obtain rfl := List.length_eq_zero_iff.1 h2
    simp only [positions, List.map_cons, List.map_nil]
    rw [List.map_flatMap]
    simp only [List.map_cons, List.map_nil, List.headD_cons, List.tail_cons, groupBytes]
    rw [List.map_eq_flatMap]
    refine List.flatMap_congr (fun r _ => ?_)
    rw [Nat.mul_comm]; rfl
  · rw [if_neg h]
    by_cases hc : contiguous len rs locs ls = true
    · rw [if_pos hc]
      unfold contiguous at hc
      simp only [Bool.and_eq_true, List.all_eq_true, beq_iff_eq] at hc
      obtain ⟨⟨hz, hlast⟩, ht⟩ := hc
      rw [positions, List.map_flatMap]
      refine List.flatMap_congr (fun r _ => ?_)
      rw [List.map_map, ← positions_ravel rs, List.map_map]
      refine List.map_congr_left (fun p hp => ?_)
      have hw := positions_within rs p hp
      have hpl : p.length = rs.length := (List.Forall₂.length_eq hw).symm
      obtain ⟨c, locs, rfl⟩ : ∃ a b, locs = a :: b := by
        cases locs with
        | nil => exact absurd (List.length_eq_zero_iff.1 h2.symm) h
        | cons a b => exact ⟨a, b, rfl⟩
      obtain ⟨l, ls, rfl⟩ : ∃ a b, ls = a :: b := by
        cases ls with
        | nil => exact absurd (List.length_eq_zero_iff.1 h1) h
        | cons a b => exact ⟨a, b, rfl⟩
      obtain ⟨q, rs, rfl⟩ : ∃ a b, rs = a :: b := by
        cases rs with
        | nil => exact absurd rfl h
        | cons a b => exact ⟨a, b, rfl⟩
      obtain ⟨k, p, rfl⟩ : ∃ a b, p = a :: b := by
        cases p with
        | nil => cases hpl
        | cons a b => exact ⟨a, b, rfl⟩
      have hb := (tight_bytes len (q :: rs) (l :: ls) (0 :: locs) (k :: p) h1 h2
        (by intro x hx; rcases List.mem_cons.1 hx with rfl | hx; rfl; exact hz x hx) hlast ht hpl).1
      simp only [Function.comp, List.headD_cons, List.tail_cons]
      congr 1
      rw [groupBytes] at hb ⊢
      have : r * L = L * r := Nat.mul_comm _ _
      omega
    · rw [if_neg hc]

end Verif.Pds4Table
