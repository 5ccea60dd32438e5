import Verif.Spec.Literal
import Verif.Lemmas.Pvl
import Mathlib.Tactic.Ring
import Mathlib.Data.List.Forall2

namespace Verif.Literal
open Verif.Py Spec

theorem digitVal_of {c : Char} {d : Nat} (h : DigitOf c d) : digitVal c = some d := by
  have e0 : ('0' : Char).toNat = 48 := rfl
  have ea : ('a' : Char).toNat = 97 := rfl
  have eA : ('A' : Char).toNat = 65 := rfl
  unfold DigitOf at h
  rw [e0, ea, eA] at h
  unfold digitVal
  simp only
  rcases h with ⟨h1, h2⟩ | ⟨h1, h2, h3 | h3⟩
  · rw [if_pos (by omega), h2]; congr 1; omega
  · rw [if_neg (by omega), if_pos (by omega), h3]; congr 1; omega
  · rw [if_neg (by omega), if_neg (by omega), if_pos (by omega), h3]; congr 1; omega

/-- digit characters are not punctuation, blanks or signs -/
theorem digit_ne {c : Char} {d : Nat} (h : DigitOf c d) :
    c ≠ '_' ∧ c ≠ '#' ∧ c ≠ '-' ∧ c ≠ '+' ∧ c ≠ '"' ∧ c ≠ ',' ∧ c ≠ ' ' ∧ c ≠ '(' ∧ c ≠ ')' ∧ c ≠ '{'
      ∧ c ≠ '}' ∧ isSpace c = false := by
  have e0 : ('0' : Char).toNat = 48 := rfl
  have ea : ('a' : Char).toNat = 97 := rfl
  have eA : ('A' : Char).toNat = 65 := rfl
  unfold DigitOf at h
  rw [e0, ea, eA] at h
  refine ⟨?_, ?_, ?_, ?_, ?_, ?_, ?_, ?_, ?_, ?_, ?_, ?_⟩
  · rintro rfl; have : ('_' : Char).toNat = 95 := rfl; omega
  · rintro rfl; have : ('#' : Char).toNat = 35 := rfl; omega
  · rintro rfl; have : ('-' : Char).toNat = 45 := rfl; omega
  · rintro rfl; have : ('+' : Char).toNat = 43 := rfl; omega
  · rintro rfl; have : ('"' : Char).toNat = 34 := rfl; omega
  · rintro rfl; have : (',' : Char).toNat = 44 := rfl; omega
  · rintro rfl; have : (' ' : Char).toNat = 32 := rfl; omega
  · rintro rfl; have : ('(' : Char).toNat = 40 := rfl; omega
  · rintro rfl; have : (')' : Char).toNat = 41 := rfl; omega
  · rintro rfl; have : ('{' : Char).toNat = 123 := rfl; omega
  · rintro rfl; have : ('}' : Char).toNat = 125 := rfl; omega
  · unfold isSpace
    simp only [Bool.or_eq_false_iff, Bool.and_eq_false_iff, decide_eq_false_iff_not,
      beq_eq_false_iff_ne]
    omega

theorem digitsVal_ok {b : Nat} {cs : Str} {ds : List Nat} (h : List.Forall₂ DigitOf cs ds)
    (hlt : ∀ d ∈ ds, d < b) (acc : Nat) (u : Bool) (hu : u = true → ds ≠ []) :
    digitsVal b acc u cs = some (acc * b ^ ds.length + value b ds) := by
  induction h generalizing acc u with
  | nil =>
    cases u with
    | true => exact absurd rfl (hu rfl)
    | false => simp [digitsVal, value]
  | @cons c d cs ds h1 h2 ih =>
    rw [digitsVal, if_neg (digit_ne h1).1, digitVal_of h1]
    simp only
    rw [if_pos (hlt d (by simp)), ih (fun x hx => hlt x (by simp [hx])) _ _ (by simp)]
    simp only [value, List.length_cons]
    congr 1; ring

theorem radixPrefix_none_or {b : Nat} {cs : Str} {ds : List Nat} (h : List.Forall₂ DigitOf cs ds)
    (hlt : ∀ d ∈ ds, d < b) (p : Nat) (rest : Str) (hp : radixPrefix cs = some (p, rest)) : p ≠ b := by
  rintro rfl
  unfold radixPrefix at hp
  split at hp
  · rename_i c rest'
    cases h with
    | cons h0 h1 =>
      cases h1 with
      | @cons _ d _ _ h1 _ =>
        have hd := hlt d (by simp)
        have hv := digitVal_of h1
        split at hp
        · rename_i hc
          have hpp : p = 16 := by simpa using (congrArg Prod.fst (Option.some.inj hp)).symm
          rcases hc with rfl | rfl
          · have : digitVal 'x' = some 33 := rfl
            rw [this] at hv; cases hv; omega
          · have : digitVal 'X' = some 33 := rfl
            rw [this] at hv; cases hv; omega
        · split at hp
          · rename_i hc
            have hpp : p = 8 := by simpa using (congrArg Prod.fst (Option.some.inj hp)).symm
            rcases hc with rfl | rfl
            · have : digitVal 'o' = some 24 := rfl
              rw [this] at hv; cases hv; omega
            · have : digitVal 'O' = some 24 := rfl
              rw [this] at hv; cases hv; omega
          · split at hp
            · rename_i hc
              have hpp : p = 2 := by simpa using (congrArg Prod.fst (Option.some.inj hp)).symm
              rcases hc with rfl | rfl
              · have : digitVal 'b' = some 11 := rfl
                rw [this] at hv; cases hv; omega
              · have : digitVal 'B' = some 11 := rfl
                rw [this] at hv; cases hv; omega
            · cases hp
  · cases hp

theorem unsignedInt_ok {b : Nat} {s : Str} {n : Nat} (h : Numeral b s n) (hb : b ≠ 0) :
    unsignedInt b s = some n := by
  obtain ⟨ds, h1, h2, h3, rfl⟩ := h
  have hd := digitsVal_ok h1 h3 0 true (fun _ => h2)
  simp only [Nat.zero_mul, Nat.zero_add] at hd
  unfold unsignedInt
  simp only
  cases hp : radixPrefix s with
  | none => simp only; rw [if_neg hb, hd]
  | some pr =>
    obtain ⟨p, rest⟩ := pr
    have := radixPrefix_none_or h1 h3 p rest hp
    simp only
    rw [if_neg (by rintro (h | h); exact hb h; exact this h.symm), hd]

theorem numeral_all {b : Nat} {s : Str} {n : Nat} (h : Numeral b s n) :
    s ≠ [] ∧ ∀ c ∈ s, ∃ d, DigitOf c d := by
  obtain ⟨ds, h1, h2, -, -⟩ := h
  constructor
  · rintro rfl; cases h1; exact h2 rfl
  · intro c hc
    induction h1 with
    | nil => cases hc
    | cons a b ih =>
      rename_i c' d' _ _
      rcases List.mem_cons.1 hc with rfl | hc
      · exact ⟨d', a⟩
      · rename_i ds' _
        by_cases hds : ds' = []
        · subst hds; cases b; cases hc
        · exact ih hds hc

theorem signed_all {b : Nat} {s : Str} {n : Int} (h : SignedNumeral b s n) :
    s ≠ [] ∧ ∀ c ∈ s, (c = '+' ∨ c = '-') ∨ ∃ d, DigitOf c d := by
  rcases h with ⟨m, h, -⟩ | ⟨t, m, rfl, h, -⟩ | ⟨t, m, rfl, h, -⟩
  · obtain ⟨h1, h2⟩ := numeral_all h
    exact ⟨h1, fun c hc => .inr (h2 c hc)⟩
  · obtain ⟨h1, h2⟩ := numeral_all h
    refine ⟨by simp, fun c hc => ?_⟩
    rcases List.mem_cons.1 hc with rfl | hc
    · exact .inl (.inl rfl)
    · exact .inr (h2 c hc)
  · obtain ⟨h1, h2⟩ := numeral_all h
    refine ⟨by simp, fun c hc => ?_⟩
    rcases List.mem_cons.1 hc with rfl | hc
    · exact .inl (.inr rfl)
    · exact .inr (h2 c hc)

theorem signed_char {b : Nat} {s : Str} {n : Int} (h : SignedNumeral b s n) :
    ∀ c ∈ s, c ≠ '#' ∧ c ≠ ',' ∧ c ≠ ' ' ∧ c ≠ '(' ∧ c ≠ ')' ∧ c ≠ '{' ∧ c ≠ '}' ∧ c ≠ '"' ∧
      isSpace c = false := by
  intro c hc
  rcases (signed_all h).2 c hc with (rfl | rfl) | ⟨d, hd⟩
  · decide
  · decide
  · obtain ⟨a1, a2, a3, a4, a5, a6, a7, a8, a9, a10, a11, a12⟩ := digit_ne hd
    exact ⟨a2, a6, a7, a8, a9, a10, a11, a5, a12⟩

theorem pyInt_ok {b : Nat} {s : Str} {n : Int} (h : SignedNumeral b s n) (hb : 2 ≤ b) (hb' : b ≤ 36) :
    pyInt s b = some n := by
  have hs : strip s = s := strip_self s
    (fun c hc => (signed_char h c (List.mem_of_mem_head? hc)).2.2.2.2.2.2.2.2)
    (fun c hc => (signed_char h c (List.mem_of_mem_getLast? hc)).2.2.2.2.2.2.2.2)
  unfold pyInt
  rw [if_neg (by omega), hs]
  rcases h with ⟨m, h, rfl⟩ | ⟨t, m, rfl, h, rfl⟩ | ⟨t, m, rfl, h, rfl⟩
  · have hc := (numeral_all h).2
    cases s with
    | nil => exact absurd rfl (numeral_all h).1
    | cons c cs =>
      obtain ⟨d, hd⟩ := hc c (by simp)
      have hn := digit_ne hd
      split
      · rename_i e; injection e with e1 _; exact absurd e1 hn.2.2.1
      · rename_i e; injection e with e1 _; exact absurd e1 hn.2.2.2.1
      · simp [unsignedInt_ok h (by omega)]
  · simp [unsignedInt_ok h (by omega)]
  · simp [unsignedInt_ok h (by omega)]

theorem splitOn_two {a b : Str} {c : Char} (ha : c ∉ a) (hb : c ∉ b) :
    splitOn c (a ++ c :: b) = [a, b] := by
  rw [splitOn_append c a b ha, splitOn_notMem c b hb]

theorem parseNonBase10_ok {b : Nat} (hb : 2 ≤ b) (hb' : b ≤ 36) {base digits : Str} {n : Int} {e : Char}
    (h1 : SignedNumeral 10 base b) (h2 : SignedNumeral b digits n) :
    parseNonBase10 (base ++ '#' :: (digits ++ [e])) = .ok n := by
  have hd : (base ++ '#' :: (digits ++ [e])).dropLast = base ++ '#' :: digits := by
    rw [show base ++ '#' :: (digits ++ [e]) = (base ++ '#' :: digits) ++ [e] by simp]
    exact List.dropLast_concat
  unfold parseNonBase10
  rw [hd, splitOn_two (fun h => (signed_char h1 _ h).1 rfl) (fun h => (signed_char h2 _ h).1 rfl)]
  simp only
  have e1 : pyInt base 10 = some (b : Int) := pyInt_ok (b := 10) h1 (by decide) (by decide)
  rw [e1]
  simp only
  rw [pyInt_ok h2 hb hb']

/-! ### enough fuel -/

theorem mem_takeWhile_imp' {p : Char → Bool} {l : Str} {x : Char} (h : x ∈ l.takeWhile p) :
    p x = true := by
  induction l with
  | nil => cases h
  | cons a l ih =>
    rw [List.takeWhile_cons] at h
    split at h
    · rename_i hp
      rcases List.mem_cons.1 h with rfl | h
      · exact hp
      · exact ih h
    · cases h

theorem splitOn_sublist (c : Char) (s p : Str) (h : p ∈ splitOn c s) : List.Sublist p s := by
  induction s generalizing p with
  | nil => simp [splitOn] at h; subst h; exact List.Sublist.refl _
  | cons a s ih =>
    rw [splitOn] at h
    split at h
    · rcases List.mem_cons.1 h with rfl | h
      · exact List.nil_sublist _
      · exact (ih p h).cons _
    · split at h
      · simp at h; subst h
        rename_i e; exact absurd e (splitOn_ne_nil c s)
      · rename_i w ws e
        rcases List.mem_cons.1 h with rfl | h
        · exact (ih w (by rw [e]; simp)).cons_cons _
        · exact (ih p (by rw [e]; simp [h])).cons _

theorem stripChars_sublist (cs : List Char) (s : Str) : List.Sublist (stripChars cs s) s := by
  unfold stripChars
  refine List.Sublist.trans ?_ (List.dropWhile_sublist (p := fun c => decide (c ∈ cs)) (l := s))
  rw [← List.reverse_sublist, List.reverse_reverse]
  exact List.dropWhile_sublist _

theorem findQuantityUnits_lt (s u : Str) (h : findQuantityUnits s = some u) : u.length < s.length := by
  induction s with
  | nil => simp [findQuantityUnits] at h
  | cons c cs ih =>
    have hg : ∀ (s r : Str), greedyToGt s = some r → r.length < s.length := by
      intro s
      induction s with
      | nil => intro r h; simp [greedyToGt] at h
      | cons c cs ih2 =>
        intro r h
        rw [greedyToGt] at h
        split at h
        · cases h
        · split at h
          · rename_i r' e
            cases h
            simpa using ih2 r' e
          · split at h
            · cases h; simp
            · cases h
    rw [findQuantityUnits] at h
    split at h
    · split at h
      · rename_i r e; cases h; have := hg cs _ e; simp; omega
      · have := ih h; simp; omega
    · have := ih h; simp; omega

theorem exponent_prefix (s : Str) : exponent s <+: s := by
  unfold exponent
  split
  · rename_i e rest
    split
    · split
      · rename_i r
        simp only
        split
        · exact List.nil_prefix
        · exact List.prefix_cons_inj _ |>.2 (List.prefix_cons_inj _ |>.2 (List.takeWhile_prefix _))
      · simp only
        split
        · exact List.nil_prefix
        · exact List.prefix_cons_inj _ |>.2 (List.takeWhile_prefix _)
    · exact List.nil_prefix
  · exact List.nil_prefix

theorem exponent_chars (s : Str) : ∀ c ∈ exponent s, c ≠ '<' := by
  unfold exponent
  have hd : ∀ r : Str, ∀ c ∈ r.takeWhile (fun c => '0' ≤ c && c ≤ '9'), c ≠ '<' := by
    intro r c hc
    have := (mem_takeWhile_imp' hc)
    rintro rfl; revert this; decide
  split
  · rename_i e rest
    split
    · rename_i he
      have hne : e ≠ '<' := by rcases he with rfl | rfl <;> decide
      split
      · rename_i r
        simp only
        split
        · simp
        · intro c hc
          rcases List.mem_cons.1 hc with rfl | hc
          · exact hne
          · rcases List.mem_cons.1 hc with rfl | hc
            · decide
            · exact hd r c hc
      · simp only
        split
        · simp
        · intro c hc
          rcases List.mem_cons.1 hc with rfl | hc
          · exact hne
          · exact hd _ c hc
    · simp
  · simp

theorem findQuantityValue_sub (s v : Str) (h : findQuantityValue s = some v) :
    List.Sublist v s ∧ '<' ∉ v := by
  induction s with
  | nil => simp [findQuantityValue] at h
  | cons c cs ih =>
    rw [findQuantityValue] at h
    split at h
    · cases h
      constructor
      · have := (List.Sublist.refl ((c :: cs).takeWhile isNumChar)).append
          (exponent_prefix ((c :: cs).dropWhile isNumChar)).sublist
        rwa [List.takeWhile_append_dropWhile] at this
      · rw [List.mem_append, not_or]
        constructor
        · intro hm
          have := (mem_takeWhile_imp' hm)
          revert this; decide
        · intro hm; exact exponent_chars _ _ hm rfl
    · split at h
      · cases h
        rename_i hp
        obtain ⟨r, hr⟩ := (startsWith_iff _ _).1 hp
        exact ⟨by rw [hr]; exact List.sublist_append_left _ _, by decide⟩
      · split at h
        · cases h
          rename_i hp
          obtain ⟨r, hr⟩ := (startsWith_iff _ _).1 hp
          exact ⟨by rw [hr]; exact List.sublist_append_left _ _, by decide⟩
        · split at h
          · cases h
            rename_i hp
            obtain ⟨r, hr⟩ := (startsWith_iff _ _).1 hp
            exact ⟨by rw [hr]; exact List.sublist_append_left _ _, by decide⟩
          · obtain ⟨h1, h2⟩ := ih h
            exact ⟨h1.cons _, h2⟩

theorem sublist_lt {a b : Str} (h : List.Sublist a b) (c : Char) (hb : c ∈ b) (ha : c ∉ a) :
    a.length < b.length := by
  rcases Nat.lt_or_ge a.length b.length with hl | hl
  · exact hl
  · have := h.eq_of_length_le hl
    subst this; exact absurd hb ha

theorem mapErr_congr {f g : Str → Except PyErr Val} {l : List Str} (h : ∀ x ∈ l, f x = g x) :
    mapErr f l = mapErr g l := by
  induction l with
  | nil => rfl
  | cons a l ih =>
    rw [mapErr, mapErr, h a (by simp), ih (fun x hx => h x (by simp [hx]))]

theorem literalFallback_congr {f g : Str → Except PyErr Val} (s : Str)
    (h : ∀ x, x.length < s.length → f x = g x) : literalFallback f s = literalFallback g s := by
  unfold literalFallback
  by_cases hb : '<' ∈ s ∧ '>' ∈ s
  · rw [if_pos hb, if_pos hb]
    have : quantityStatement f s = quantityStatement g s := by
      unfold quantityStatement
      rw [mapErr_congr (g := fun obj => if '<' ∈ obj ∧ '>' ∈ obj then quantityObject g obj else g obj)]
      intro x hx
      have hsub : List.Sublist x s := (splitOn_sublist _ _ _ hx).trans (stripChars_sublist _ _)
      by_cases hx2 : '<' ∈ x ∧ '>' ∈ x
      · rw [if_pos hx2, if_pos hx2]
        unfold quantityObject
        cases hv : findQuantityValue x with
        | none => rfl
        | some v =>
          simp only
          obtain ⟨h1, h2⟩ := findQuantityValue_sub x v hv
          have e1 : f v = g v := h v (by
            have := sublist_lt h1 '<' hx2.1 h2
            have := hsub.length_le
            omega)
          rw [e1]
          cases hu : findQuantityUnits x with
          | none => rfl
          | some u =>
            have e2 : f u = g u := h u (by
              have := findQuantityUnits_lt x u hu
              have := hsub.length_le
              omega)
            simp only [e2]
      · rw [if_neg hx2, if_neg hx2]
        refine h x ?_
        by_cases h1 : '<' ∈ x
        · exact sublist_lt hsub '>' hb.2 (fun h2 => hx2 ⟨h1, h2⟩)
        · exact sublist_lt hsub '<' hb.1 h1
    rw [this]
  · rw [if_neg hb, if_neg hb]

/-- The recursion of `literalize_pvl` is on strictly shorter strings: any fuel above the length of
the text gives the same answer. -/
theorem literalize_fuel (litEval : Str → Except PyErr Val) (s : Str) (f g : Nat)
    (hf : s.length < f) (hg : s.length < g) : literalize litEval f s = literalize litEval g s := by
  induction f generalizing s g with
  | zero => omega
  | succ f ih =>
    cases g with
    | zero => omega
    | succ g =>
      have hfb : literalFallback (literalize litEval f) s = literalFallback (literalize litEval g) s :=
        literalFallback_congr s (fun x hx => ih x g (by omega) (by omega))
      simp only [literalize, hfb]

end Verif.Literal
