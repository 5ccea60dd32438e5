/-
Lemmas about the numbers found in a text (Model/AsciiArray).
-/
import Verif.Model.AsciiArray
import Verif.Spec.AsciiArray
import Mathlib.Data.List.TakeWhile
import Mathlib.Tactic.Ring
import Mathlib.Tactic.IntervalCases

namespace Verif.AsciiArray
open Verif.Py Verif.AsciiArray.Spec

/-- a character that ends a number and does not begin one -/
def stop (c : Char) : Prop := isDig c = false ∧ c ≠ '.' ∧ isSign c = false

theorem stop_blank (c : Char) (h : c ∈ [' ', '\t', '\n', '\r', ',']) : stop c := by
  simp only [List.mem_cons, List.not_mem_nil, or_false] at h
  rcases h with rfl | rfl | rfl | rfl | rfl <;> exact ⟨by decide, by decide, by decide⟩

theorem takeWhile_stop (p : Char → Bool) (a b : Str) (c : Char) (h : p c = false) :
    (a ++ c :: b).takeWhile p = a.takeWhile p := by
  induction a with
  | nil => simp [h]
  | cons x a ih => by_cases hx : p x <;> simp [hx, ih]

theorem dropWhile_stop (p : Char → Bool) (a b : Str) (c : Char) (h : p c = false) :
    (a ++ c :: b).dropWhile p = a.dropWhile p ++ c :: b := by
  induction a with
  | nil => simp [h]
  | cons x a ih => by_cases hx : p x <;> simp [hx, ih]

theorem unsignedToken_stop (a b : Str) (c : Char) (hc : stop c) :
    unsignedToken (a ++ c :: b) = (unsignedToken a).map (fun p => (p.1, p.2 ++ c :: b)) := by
  unfold unsignedToken
  rw [takeWhile_stop _ _ _ _ hc.1, dropWhile_stop _ _ _ _ hc.1]
  cases h : a.takeWhile isDig with
  | nil => rfl
  | cons d ds =>
    cases hd : a.dropWhile isDig with
    | nil =>
      have h2 : c ≠ '.' := hc.2.1
      simp only [List.nil_append]
      split
      · rename_i r heq; simp at heq; exact absurd heq.1 h2
      · rfl
    | cons x r =>
      by_cases hx : x = '.'
      · subst hx
        simp [takeWhile_stop _ _ _ _ hc.1, dropWhile_stop _ _ _ _ hc.1]
      · simp only [List.cons_append]
        split
        · rename_i r' heq; simp at heq; exact absurd heq.1 hx
        · split
          · rename_i r' heq; simp at heq; exact absurd heq.1 hx
          · rfl

theorem unsignedToken_none (c : Char) (r : Str) (h : isDig c = false) : unsignedToken (c :: r) = none := by
  simp [unsignedToken, h]

theorem unsignedToken_length (s t r : Str) (h : unsignedToken s = some (t, r)) : r.length < s.length := by
  unfold unsignedToken at h
  have hl := congrArg List.length (List.takeWhile_append_dropWhile (p := isDig) (l := s))
  rw [List.length_append] at hl
  cases h1 : s.takeWhile isDig with
  | nil => rw [h1] at h; simp at h
  | cons d ds =>
    rw [h1] at h hl
    simp only [List.length_cons] at hl
    cases h2 : s.dropWhile isDig with
    | nil => rw [h2] at h hl; simp at h; rw [h.2]; simp at hl ⊢; omega
    | cons x q =>
      rw [h2] at h hl
      simp only [List.length_cons] at hl
      by_cases hx : x = '.'
      · subst hx
        simp at h
        rw [← h.2]
        have := List.length_dropWhile_le isDig q
        omega
      · have h3 : some (d :: ds, x :: q) = some (t, r) := by
          simp only at h
          revert h
          split
          · rename_i r' heq; simp at heq; exact fun _ => absurd heq.1 hx
          · exact id
        simp at h3; rw [← h3.2]; simp; omega

theorem token_length (s t r : Str) (h : token s = some (t, r)) : r.length < s.length := by
  cases s with
  | nil => simp [token] at h
  | cons c q =>
    simp only [token] at h
    split at h
    · cases hu : unsignedToken q with
      | none => rw [hu] at h; simp at h
      | some p =>
        rw [hu] at h
        simp at h
        have := unsignedToken_length q p.1 p.2 hu
        rw [← h.2]; simp; omega
    · exact unsignedToken_length _ _ _ h

theorem fuel_enough (n m : Nat) : ∀ s : Str, s.length ≤ n → s.length ≤ m → findallFuel n s = findallFuel m s := by
  induction n generalizing m with
  | zero =>
    intro s h _
    have : s = [] := List.length_eq_zero_iff.mp (by omega)
    subst this
    cases m <;> rfl
  | succ n ih =>
    intro s hn hm
    cases s with
    | nil => cases m <;> rfl
    | cons c r =>
      simp only [List.length_cons] at hn hm
      obtain ⟨m, rfl⟩ : ∃ k, m = k + 1 := ⟨m - 1, by omega⟩
      simp only [findallFuel]
      cases ht : token (c :: r) with
      | none => simp only; exact ih m r (by omega) (by omega)
      | some p =>
        have := token_length _ p.1 p.2 ht
        simp only [List.length_cons] at this
        simp only
        rw [ih m p.2 (by omega) (by omega)]

theorem findall_nil : findall [] = [] := rfl

theorem findall_token (s t r : Str) (h : token s = some (t, r)) : findall s = t :: findall r := by
  have hl := token_length s t r h
  cases s with
  | nil => simp [token] at h
  | cons c q =>
    simp only [List.length_cons] at hl
    unfold findall
    simp only [List.length_cons, findallFuel, h]
    rw [fuel_enough q.length r.length r (by omega) (le_refl _)]

theorem findall_skip (c : Char) (r : Str) (h : token (c :: r) = none) : findall (c :: r) = findall r := by
  unfold findall
  simp only [List.length_cons, findallFuel, h]

theorem token_stop (a b : Str) (c : Char) (hc : stop c) :
    token (a ++ c :: b) = (token a).map (fun p => (p.1, p.2 ++ c :: b)) := by
  cases a with
  | nil => simp [token, hc.2.2, unsignedToken_none c b hc.1]
  | cons x a =>
    simp only [List.cons_append, token]
    split
    · rw [unsignedToken_stop _ _ _ hc]
      cases unsignedToken a <;> rfl
    · have := unsignedToken_stop (x :: a) b c hc
      simpa using this

/-- text before and after a character that is in no number is looked at separately -/
theorem findall_stop (b : Str) (c : Char) (hc : stop c) :
    ∀ (n : Nat) (a : Str), a.length ≤ n → findall (a ++ c :: b) = findall a ++ findall b := by
  intro n
  induction n with
  | zero =>
    intro a h
    have : a = [] := List.length_eq_zero_iff.mp (by omega)
    subst this
    rw [List.nil_append, findall_skip c b (by simp [token, hc.2.2, unsignedToken_none c b hc.1])]
    rfl
  | succ n ih =>
    intro a h
    cases a with
    | nil => exact ih [] (by simp)
    | cons x a =>
      simp only [List.length_cons] at h
      have ht := token_stop (x :: a) b c hc
      cases hx : token (x :: a) with
      | none =>
        rw [hx] at ht
        rw [findall_skip x a hx, List.cons_append, findall_skip x (a ++ c :: b) ht]
        exact ih a (by omega)
      | some p =>
        rw [hx] at ht
        have hl := token_length _ p.1 p.2 hx
        simp only [List.length_cons] at hl
        rw [findall_token _ p.1 p.2 hx, findall_token _ p.1 (p.2 ++ c :: b) ht, ih p.2 (by omega)]
        rfl

theorem findall_split (a b : Str) (c : Char) (hc : stop c) : findall (a ++ c :: b) = findall a ++ findall b :=
  findall_stop b c hc a.length a (le_refl _)

/-- blanks hold no numbers -/
theorem findall_blank (s r : Str) (hs : ∀ c ∈ s, stop c) : findall (s ++ r) = findall r := by
  induction s with
  | nil => rfl
  | cons c s ih =>
    have hc := hs c (by simp)
    rw [List.cons_append, findall_skip c _ (by simp [token, hc.2.2, unsignedToken_none c _ hc.1])]
    exact ih (fun x hx => hs x (by simp [hx]))

/-! ### numerals -/

theorem digitChar_facts (d : Fin 10) : isDig (digitChar d) = true ∧ digitChar d ≠ '.' ∧ isSign (digitChar d) = false ∧
    (digitChar d).toNat - 48 = d.val := by
  revert d; decide

theorem takeWhile_digits (ds : List (Fin 10)) (r : Str) (hr : ∀ c ∈ r.head?, isDig c = false) :
    (ds.map digitChar ++ r).takeWhile isDig = ds.map digitChar ∧ (ds.map digitChar ++ r).dropWhile isDig = r := by
  induction ds with
  | nil =>
    cases r with
    | nil => simp
    | cons c r =>
      have := hr c (by simp)
      simp [this]
  | cons d ds ih => simp [(digitChar_facts d).1, ih.1, ih.2]

theorem unsignedToken_numeral (n : Numeral) (r : Str) (hr : ∀ c ∈ r.head?, isDig c = false ∧ c ≠ '.') :
    unsignedToken (digitChar n.first :: (n.whole.map digitChar ++ fracText n.frac) ++ r) =
      some (digitChar n.first :: (n.whole.map digitChar ++ fracText n.frac), r) := by
  cases hf : n.frac with
  | none =>
    have hr' : ∀ c ∈ r.head?, isDig c = false := fun c hc => (hr c hc).1
    have ht := takeWhile_digits (n.first :: n.whole) r hr'
    simp only [List.map_cons] at ht
    unfold unsignedToken
    simp only [fracText, List.append_nil]
    rw [ht.1, ht.2]
    cases r with
    | nil => rfl
    | cons c r =>
      have := (hr c (by simp)).2
      simp only
      split
      · rename_i heq; simp at heq; exact absurd heq.1 this
      · rfl
  | some ds =>
    have hr' : ∀ c ∈ r.head?, isDig c = false := fun c hc => (hr c hc).1
    have ht := takeWhile_digits (n.first :: n.whole) ('.' :: (ds.map digitChar ++ r)) (by simp; decide)
    have h2 := takeWhile_digits ds r hr'
    simp only [List.map_cons] at ht
    unfold unsignedToken
    have he : digitChar n.first :: (n.whole.map digitChar ++ fracText (some ds)) ++ r =
        digitChar n.first :: n.whole.map digitChar ++ '.' :: (ds.map digitChar ++ r) := by
      simp [fracText]
    rw [he, ht.1, ht.2]
    simp only [h2.1, h2.2, fracText, List.cons_append]

theorem token_numeral (n : Numeral) (r : Str) (hr : ∀ c ∈ r.head?, isDig c = false ∧ c ≠ '.') :
    token (n.text ++ r) = some (n.text, r) := by
  have h := unsignedToken_numeral n r hr
  unfold Numeral.text
  cases hs : n.sign with
  | none =>
    simp only [signText, List.nil_append, List.cons_append, token, (digitChar_facts n.first).2.2.1]
    simpa using h
  | some b =>
    cases b
    · simp only [signText, List.cons_append, List.nil_append, token]
      rw [List.cons_append] at h
      rw [h]; rfl
    · simp only [signText, List.cons_append, List.nil_append, token]
      rw [List.cons_append] at h
      rw [h]; rfl

theorem findall_numeral (n : Numeral) : findall n.text = [n.text] := by
  have h := token_numeral n [] (by simp)
  rw [List.append_nil] at h
  rw [findall_token _ _ _ h]; rfl

/-! ### values -/

theorem foldl_digits (ds : List (Fin 10)) (a : Nat) :
    (ds.map digitChar).foldl (fun a c => a * 10 + (c.toNat - 48)) a = a * 10 ^ ds.length + number ds := by
  induction ds generalizing a with
  | nil => simp [number]
  | cons d ds ih =>
    simp only [List.map_cons, List.foldl_cons, (digitChar_facts d).2.2.2, List.length_cons, number]
    rw [ih]; ring

theorem digits_number (ds : List (Fin 10)) : digits (ds.map digitChar) = number ds := by
  unfold digits; rw [foldl_digits]; simp

theorem takeWhile_point (ds : List (Fin 10)) (r : Str) :
    (ds.map digitChar ++ '.' :: r).takeWhile (· ≠ '.') = ds.map digitChar ∧
    (ds.map digitChar ++ '.' :: r).dropWhile (· ≠ '.') = '.' :: r := by
  induction ds with
  | nil => simp
  | cons d ds ih =>
    have := (digitChar_facts d).2.1
    simp only [List.map_cons, List.cons_append]
    rw [List.takeWhile_cons, List.dropWhile_cons]
    simp only [this, ne_eq, not_false_eq_true, decide_true, if_true]
    exact ⟨by rw [ih.1], ih.2⟩

theorem takeWhile_nopoint (ds : List (Fin 10)) :
    (ds.map digitChar).takeWhile (· ≠ '.') = ds.map digitChar ∧
    (ds.map digitChar).dropWhile (· ≠ '.') = [] := by
  induction ds with
  | nil => simp
  | cons d ds ih =>
    have := (digitChar_facts d).2.1
    simp only [List.map_cons]
    rw [List.takeWhile_cons, List.dropWhile_cons]
    simp only [this, ne_eq, not_false_eq_true, decide_true, if_true]
    exact ⟨by rw [ih.1], ih.2⟩

theorem exactValue_text (n : Numeral) : exactValue n.text = n.value := by
  have hb : (if n.text.head?.any isSign then n.text.tail else n.text) =
      digitChar n.first :: (n.whole.map digitChar ++ fracText n.frac) := by
    unfold Numeral.text
    cases hs : n.sign with
    | none => simp [signText, (digitChar_facts n.first).2.2.1]
    | some b => cases b <;> simp [signText, isSign]
  have hsg : (n.text.head? = some '-') ↔ n.sign = some true := by
    unfold Numeral.text
    cases hs : n.sign with
    | none =>
      have := (digitChar_facts n.first).2.2.1
      simp only [signText, List.nil_append, List.head?_cons, Option.some.injEq, reduceCtorEq, iff_false]
      intro h; rw [h] at this; simp [isSign] at this
    | some b => cases b <;> simp [signText]
  unfold exactValue
  rw [hb]
  unfold Numeral.value
  cases hf : n.frac with
  | none =>
    have h := takeWhile_nopoint (n.first :: n.whole)
    simp only [List.map_cons] at h
    simp only [fracText, List.append_nil, h.1, h.2, Option.getD_none]
    rw [show digitChar n.first :: n.whole.map digitChar = (n.first :: n.whole).map digitChar from rfl, digits_number]
    by_cases hm : n.sign = some true
    · rw [if_pos (hsg.mpr hm), if_pos hm]; simp [digits, number]
    · rw [if_neg (fun h => hm (hsg.mp h)), if_neg hm]; simp [digits, number]
  | some ds =>
    have h := takeWhile_point (n.first :: n.whole) (ds.map digitChar)
    simp only [List.map_cons, List.cons_append] at h
    simp only [fracText, h.1, h.2, Option.getD_some, List.drop_succ_cons, List.drop_zero, List.length_map]
    rw [show digitChar n.first :: n.whole.map digitChar = (n.first :: n.whole).map digitChar from rfl, digits_number,
      digits_number]
    by_cases hm : n.sign = some true
    · rw [if_pos (hsg.mpr hm), if_pos hm]; simp
    · rw [if_neg (fun h => hm (hsg.mp h)), if_neg hm]; simp

/-- the numbers found in texts with blanks between them -/
theorem findall_layout (lead : Str) (xs : List (Str × Str)) (h : Laid lead xs) :
    findall (layout lead xs) = xs.flatMap (fun p => findall p.1) := by
  have hb : ∀ s, Blank s → ∀ c ∈ s, stop c := fun s hs c hc => stop_blank c (hs c hc)
  unfold layout
  rw [findall_blank _ _ (hb _ h.lead)]
  have hseps := h.seps
  have hbet := h.between
  clear h
  induction xs with
  | nil => rfl
  | cons p xs ih =>
    obtain ⟨n, s⟩ := p
    simp only [List.flatMap_cons]
    have hs := hseps (n, s) (by simp)
    cases s with
    | cons x s =>
      have hx := hb _ hs
      rw [List.append_assoc, List.cons_append, findall_split _ _ _ (hx x (by simp)),
        findall_blank _ _ (fun c hc => hx c (by simp [hc])),
        ih (fun p hp => hseps p (by simp [hp]))]
      intro p hp
      cases xs with
      | nil => simp at hp
      | cons q xs => exact hbet p (by rw [List.dropLast_cons_cons]; exact List.mem_cons_of_mem _ hp)
    | nil =>
      cases xs with
      | nil => simp
      | cons q xs => exact absurd rfl (hbet (n, []) (by simp))

theorem findall_numbers (lead : Str) (ns : List Numeral) (seps : List Str) (hl : seps.length = ns.length)
    (h : Laid lead (numbers ns seps)) : findall (layout lead (numbers ns seps)) = ns.map Numeral.text := by
  rw [findall_layout _ _ h]
  clear h
  unfold numbers
  induction ns generalizing seps with
  | nil => rfl
  | cons n ns ih =>
    cases seps with
    | nil => simp at hl
    | cons s seps =>
      simp only [List.map_cons, List.zip_cons_cons, List.flatMap_cons, findall_numeral]
      rw [ih seps (by simpa using hl)]; rfl

end Verif.AsciiArray
