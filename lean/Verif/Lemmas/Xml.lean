/-
Lemmas about the model of XML labels.
-/
import Verif.Spec.Xml
import Verif.Lemmas.Str
import Mathlib.Data.List.TakeWhile
import Mathlib.Data.List.Infix

namespace Verif.Xml
open Verif.Py Verif.Pvl Verif.Xml.Spec

/-! ### splitting -/

theorem splitP_ne (p : Char → Bool) (s : Str) : splitP p s ≠ [] := by
  cases s with
  | nil => simp [splitP]
  | cons c cs =>
    unfold splitP
    by_cases h : p c = true
    · rw [if_pos h]; simp
    · rw [if_neg h]
      split <;> simp

theorem splitP_cons_sep (p : Char → Bool) (c : Char) (s : Str) (h : p c = true) : splitP p (c :: s) = [] :: splitP p s := by
  rw [splitP, if_pos h]

theorem splitP_cons (p : Char → Bool) (c : Char) (s : Str) (h : p c = false) :
    ∃ w ws, splitP p s = w :: ws ∧ splitP p (c :: s) = (c :: w) :: ws := by
  obtain ⟨w, ws, hw⟩ := List.exists_cons_of_ne_nil (splitP_ne p s)
  refine ⟨w, ws, hw, ?_⟩
  rw [splitP, if_neg (by simp [h]), hw]

theorem splitP_plain (p : Char → Bool) (w : Str) (h : ∀ c ∈ w, p c = false) : splitP p w = [w] := by
  induction w with
  | nil => rfl
  | cons c w ih =>
    obtain ⟨w', ws, h1, h2⟩ := splitP_cons p c w (h c (by simp))
    rw [ih (fun x hx => h x (by simp [hx]))] at h1
    cases h1
    exact h2

theorem splitP_append (p : Char → Bool) (w : Str) (c : Char) (r : Str) (h : ∀ c ∈ w, p c = false) (hc : p c = true) :
    splitP p (w ++ c :: r) = w :: splitP p r := by
  induction w with
  | nil => exact splitP_cons_sep p c r hc
  | cons x w ih =>
    obtain ⟨w', ws, h1, h2⟩ := splitP_cons p x (w ++ c :: r) (h x (by simp))
    rw [ih (fun y hy => h y (by simp [hy]))] at h1
    cases h1
    exact h2

/-! ### words -/

theorem words_space (c : Char) (s : Str) (h : isSpace c = true) : words (c :: s) = words s := by
  unfold words
  rw [splitP_cons_sep _ _ _ h]
  simp

theorem HasWords.space {t : Str} {ws : List Str} (h : HasWords t ws) (c : Char) (hc : isSpace c = true) : HasWords (c :: t) ws := by
  have hb : ∀ sp : Str, Blank sp → Blank (c :: sp) := by
    intro sp hs x hx
    rcases List.mem_cons.mp hx with rfl | hx
    · exact hc
    · exact hs x hx
  cases h with
  | nil sp hs => exact .nil _ (hb _ hs)
  | last sp w sp' h1 h2 h3 h4 => exact .last (c :: sp) w sp' (hb _ h1) h2 h3 h4
  | cons sp w t c' ws h1 h2 h3 h4 h5 h6 => exact .cons (c :: sp) w t c' ws (hb _ h1) h2 h3 h4 h5 h6

theorem blank_of_words {t : Str} (h : HasWords t []) : Blank t := by
  cases h with
  | nil sp hs => exact hs

theorem hasWords : ∀ (n : Nat) (t : Str), t.length ≤ n → HasWords t (words t) := by
  intro n
  induction n with
  | zero =>
    intro t ht
    have : t = [] := List.length_eq_zero_iff.mp (by omega)
    subst this
    exact .nil [] (by intro c hc; simp at hc)
  | succ n ih =>
    intro t ht
    cases t with
    | nil => exact .nil [] (by intro c hc; simp at hc)
    | cons c s =>
      simp only [List.length_cons] at ht
      by_cases hc : isSpace c = true
      · rw [words_space c s hc]
        exact HasWords.space (ih s (by omega)) c hc
      · simp only [Bool.not_eq_true] at hc
        -- the word at the beginning
        have hsplit := List.takeWhile_append_dropWhile (p := fun x => !isSpace x) (l := s)
        set w := s.takeWhile (fun x => !isSpace x) with hw
        set r := s.dropWhile (fun x => !isSpace x) with hr
        have hwp : ∀ x ∈ c :: w, isSpace x = false := by
          intro x hx
          rcases List.mem_cons.mp hx with rfl | hx
          · exact hc
          · simpa using List.mem_takeWhile_imp hx
        cases hrc : r with
        | nil =>
          rw [hrc, List.append_nil] at hsplit
          have : words (c :: s) = [c :: s] := by
            unfold words
            rw [splitP_plain _ _ (by rw [← hsplit]; exact hwp)]
            simp
          rw [this]
          have := HasWords.last [] (c :: s) [] (by intro x hx; simp at hx) (by simp) (by rw [← hsplit]; exact hwp)
            (by intro x hx; simp at hx)
          simpa using this
        | cons d r' =>
          have hd : isSpace d = true := by
            have h0 : r ≠ [] := by rw [hrc]; simp
            have := List.head_dropWhile_not (l := s) (fun x => !isSpace x) (by rw [← hr]; exact h0)
            simp only [← hr] at this
            simp only [hrc, List.head_cons] at this
            simpa using this
          rw [hrc] at hsplit
          have he : words (c :: s) = (c :: w) :: words r' := by
            unfold words
            rw [← hsplit, show c :: (w ++ d :: r') = (c :: w) ++ d :: r' from rfl, splitP_append _ _ _ _ hwp hd]
            simp
          rw [he]
          have hlen : r'.length ≤ n := by
            have := congrArg List.length hsplit
            simp at this
            omega
          have hrec := ih r' hlen
          cases hws : words r' with
          | nil =>
            rw [hws] at hrec
            have := HasWords.last [] (c :: w) (d :: r') (by intro x hx; simp at hx) (by simp) hwp (by
              intro x hx
              rcases List.mem_cons.mp hx with rfl | hx
              · exact hd
              · exact blank_of_words hrec x hx)
            rw [← hsplit]
            simpa using this
          | cons w' ws' =>
            rw [hws] at hrec
            have := HasWords.cons [] (c :: w) r' d (w' :: ws') (by intro x hx; simp at hx) (by simp) hwp hd (by simp) hrec
            rw [← hsplit]
            simpa using this

/-! ### lines -/

theorem isBreak_iff (c : Char) : isBreak c = true ↔ LineEnd c := by
  simp only [isBreak, LineEnd, Bool.or_eq_true, Bool.and_eq_true, decide_eq_true_eq, beq_iff_eq, List.mem_cons, List.not_mem_nil, or_false]
  omega

theorem lineEnd_space (c : Char) (h : LineEnd c) : isSpace c = true := by
  simp only [LineEnd, List.mem_cons, List.not_mem_nil, or_false] at h
  simp only [isSpace, Bool.or_eq_true, Bool.and_eq_true, decide_eq_true_eq, beq_iff_eq]
  omega

theorem strip_isEmpty (s : Str) : (strip s).isEmpty = true ↔ Blank s := by
  rw [List.isEmpty_iff]
  unfold strip rstrip lstrip
  rw [List.reverse_eq_nil_iff, List.dropWhile_eq_nil_iff]
  constructor
  · intro h
    have h1 : s.dropWhile isSpace = [] := by
      cases hs : s.dropWhile isSpace with
      | nil => rfl
      | cons c r =>
        exfalso
        have h0 : s.dropWhile isSpace ≠ [] := by rw [hs]; simp
        have := List.head_dropWhile_not (l := s) isSpace h0
        simp only [hs, List.head_cons] at this
        have h2 := h c (by rw [hs]; simp)
        rw [this] at h2
        cases h2
    exact List.dropWhile_eq_nil_iff.mp h1
  · intro h x hx
    rw [List.mem_reverse] at hx
    exact h x ((List.dropWhile_sublist _).subset hx)

theorem strip_isEmpty_false (s : Str) : (strip s).isEmpty = false ↔ ¬ Blank s := by
  rw [← strip_isEmpty]
  simp

/-- counting lines character by character; the flag says that the current line has a word -/
def countFrom : Bool → Str → Nat
  | b, [] => if b then 1 else 0
  | b, c :: s => if isBreak c then (if b then 1 else 0) + countFrom false s else countFrom (b || !isSpace c) s

theorem count_splitP (s : Str) : ∀ (b : Bool) (w : Str) (ws : List Str), splitP isBreak s = w :: ws →
    countFrom b s = (if b || !(strip w).isEmpty then 1 else 0) + (ws.filter (fun l => !(strip l).isEmpty)).length := by
  induction s with
  | nil =>
    intro b w ws h
    simp only [splitP, List.cons.injEq] at h
    obtain ⟨rfl, rfl⟩ := h
    simp [countFrom, strip, lstrip, rstrip]
  | cons c s ih =>
    intro b w ws h
    by_cases hc : isBreak c = true
    · rw [splitP_cons_sep _ _ _ hc] at h
      cases h
      obtain ⟨w, ws, hw⟩ := List.exists_cons_of_ne_nil (splitP_ne isBreak s)
      simp only [countFrom, hc, if_true]
      rw [ih false w ws hw, hw]
      rw [show (strip ([] : Str)).isEmpty = true from rfl]
      simp only [Bool.not_true, Bool.or_false, Bool.false_or, List.filter_cons]
      cases (strip w).isEmpty <;> simp; omega
    · simp only [Bool.not_eq_true] at hc
      obtain ⟨w', ws', h1, h2⟩ := splitP_cons _ c s hc
      rw [h2] at h
      cases h
      simp only [countFrom, hc, Bool.false_eq_true, if_false]
      rw [ih _ _ _ h1]
      congr 1
      have : (b || !isSpace c || !(strip w').isEmpty) = (b || !(strip (c :: w')).isEmpty) := by
        have h3 : (strip (c :: w')).isEmpty = (isSpace c && (strip w').isEmpty) := by
          rw [Bool.eq_iff_iff, Bool.and_eq_true, strip_isEmpty, strip_isEmpty]
          simp [Blank]
        rw [h3, Bool.not_and, Bool.or_assoc]
      rw [this]

theorem nonBlankLines_eq (s : Str) : nonBlankLines s = countFrom false s := by
  obtain ⟨w, ws, hw⟩ := List.exists_cons_of_ne_nil (splitP_ne isBreak s)
  rw [count_splitP s false w ws hw]
  unfold nonBlankLines
  rw [hw, List.filter_cons]
  simp only [Bool.false_or]
  split <;> simp; omega

theorem count_blank (b : Bool) (d : Str) (hd : Blank d) : countFrom b d = if b then 1 else 0 := by
  induction d generalizing b with
  | nil => rfl
  | cons c d ih =>
    have hc := hd c (by simp)
    have hd' : Blank d := fun x hx => hd x (by simp [hx])
    simp only [countFrom]
    split
    · rw [ih false hd']; simp
    · rw [ih _ hd', hc]; simp

theorem count_append_blank (b : Bool) (s d : Str) (hd : Blank d) : countFrom b (s ++ d) = countFrom b s := by
  induction s generalizing b with
  | nil => exact count_blank b d hd
  | cons c s ih =>
    simp only [List.cons_append, countFrom, ih]

theorem count_blank_append (a s : Str) (ha : Blank a) : countFrom false (a ++ s) = countFrom false s := by
  induction a with
  | nil => rfl
  | cons c a ih =>
    have hc := ha c (by simp)
    simp only [List.cons_append, countFrom, hc]
    rw [show countFrom (false || !true) (a ++ s) = countFrom false (a ++ s) from rfl, ih (fun x hx => ha x (by simp [hx]))]
    simp

theorem count_no_break (b : Bool) (s : Str) (h : ∀ x ∈ s, isBreak x = false) :
    countFrom b s = if b || s.any (fun x => !isSpace x) then 1 else 0 := by
  induction s generalizing b with
  | nil => simp [countFrom]
  | cons c s ih =>
    simp only [countFrom, h c (by simp), Bool.false_eq_true, if_false]
    rw [ih _ (fun x hx => h x (by simp [hx]))]
    simp [Bool.or_assoc]

theorem count_pos (b : Bool) (s : Str) (h : b = true ∨ ∃ x ∈ s, isSpace x = false) : 1 ≤ countFrom b s := by
  induction s generalizing b with
  | nil =>
    rcases h with rfl | ⟨x, hx, -⟩
    · simp [countFrom]
    · simp at hx
  | cons c s ih =>
    simp only [countFrom]
    by_cases hc : isBreak c = true
    · rw [if_pos hc]
      rcases h with rfl | ⟨x, hx, hs⟩
      · simp
      · rcases List.mem_cons.mp hx with rfl | hx
        · rw [lineEnd_space _ ((isBreak_iff _).mp hc)] at hs; cases hs
        · have := ih false (Or.inr ⟨x, hx, hs⟩)
          omega
    · rw [if_neg hc]
      refine ih _ ?_
      rcases h with rfl | ⟨x, hx, hs⟩
      · left; simp
      · rcases List.mem_cons.mp hx with rfl | hx
        · left; simp [hs]
        · exact Or.inr ⟨x, hx, hs⟩

theorem count_break (b : Bool) (p : Str) (c : Char) (q : Str) (hc : isBreak c = true)
    (hp : b = true ∨ ∃ x ∈ p, isSpace x = false) (hq : ∃ x ∈ q, isSpace x = false) : 2 ≤ countFrom b (p ++ c :: q) := by
  induction p generalizing b with
  | nil =>
    rcases hp with rfl | ⟨x, hx, -⟩
    · have := count_pos false q (Or.inr hq)
      simp only [List.nil_append, countFrom, hc, if_true]
      omega
    · simp at hx
  | cons d p ih =>
    simp only [List.cons_append, countFrom]
    by_cases hd : isBreak d = true
    · rw [if_pos hd]
      rcases hp with rfl | ⟨x, hx, hs⟩
      · have := count_pos false (p ++ c :: q) (Or.inr (by
          obtain ⟨x, hx, hs⟩ := hq
          exact ⟨x, by simp [hx], hs⟩))
        simp only [if_true]
        omega
      · rcases List.mem_cons.mp hx with rfl | hx
        · rw [lineEnd_space _ ((isBreak_iff _).mp hd)] at hs; cases hs
        · have := ih false (Or.inr ⟨x, hx, hs⟩)
          omega
    · rw [if_neg hd]
      refine ih _ ?_
      rcases hp with rfl | ⟨x, hx, hs⟩
      · left; simp
      · rcases List.mem_cons.mp hx with rfl | hx
        · left; simp [hs]
        · exact Or.inr ⟨x, hx, hs⟩

/-- white space, a text that begins and ends without it, white space -/
theorem strip_parts (t : Str) (h : ¬ Blank t) : ∃ a m d : Str, t = a ++ m ++ d ∧ Blank a ∧ Blank d ∧
    (∃ x r, m = x :: r ∧ isSpace x = false) ∧ (∃ r y, m = r ++ [y] ∧ isSpace y = false) := by
  have ht := List.takeWhile_append_dropWhile (p := isSpace) (l := t)
  set l := t.dropWhile isSpace with hl
  have hlne : l ≠ [] := by
    intro h0
    exact h (List.dropWhile_eq_nil_iff.mp h0)
  have hhead : ∃ x r, l = x :: r ∧ isSpace x = false := by
    obtain ⟨x, r, hx⟩ := List.exists_cons_of_ne_nil hlne
    refine ⟨x, r, hx, ?_⟩
    have := List.head_dropWhile_not (l := t) isSpace (by rw [← hl]; exact hlne)
    simp only [← hl] at this
    simpa only [hx, List.head_cons] using this
  have hr := List.takeWhile_append_dropWhile (p := isSpace) (l := l.reverse)
  set d := l.reverse.takeWhile isSpace with hd
  set m := l.reverse.dropWhile isSpace with hm
  have hlm : l = m.reverse ++ d.reverse := by
    have := congrArg List.reverse hr
    rw [List.reverse_append, List.reverse_reverse] at this
    exact this.symm
  have hmne : m ≠ [] := by
    intro h0
    rw [h0, List.reverse_nil, List.nil_append] at hlm
    obtain ⟨x, r, hx, hs⟩ := hhead
    have : x ∈ d := by rw [← List.mem_reverse, ← hlm, hx]; simp
    have := List.mem_takeWhile_imp this
    rw [hs] at this
    cases this
  refine ⟨t.takeWhile isSpace, m.reverse, d.reverse, ?_, ?_, ?_, ?_, ?_⟩
  · rw [List.append_assoc, ← hlm, ht]
  · intro x hx
    exact List.mem_takeWhile_imp hx
  · intro x hx
    exact List.mem_takeWhile_imp (List.mem_reverse.mp hx)
  · obtain ⟨x, r, hx, hs⟩ := hhead
    obtain ⟨y, m', hy⟩ := List.exists_cons_of_ne_nil (show m.reverse ≠ [] by simpa using hmne)
    refine ⟨y, m', hy, ?_⟩
    rw [hy, List.cons_append, hx] at hlm
    rw [List.cons.injEq] at hlm
    rw [← hlm.1]; exact hs
  · obtain ⟨y, m', hy⟩ := List.exists_cons_of_ne_nil hmne
    refine ⟨m'.reverse, y, by rw [hy]; simp, ?_⟩
    have := List.head_dropWhile_not (l := l.reverse) isSpace (by rw [← hm]; exact hmne)
    simp only [← hm] at this
    simpa only [hy, List.head_cons] using this

theorem one_line (t : Str) : nonBlankLines t = 1 ↔ OneLine t := by
  rw [nonBlankLines_eq]
  constructor
  · intro h1
    by_cases hb : Blank t
    · rw [count_blank false t hb] at h1; simp at h1
    · obtain ⟨a, m, d, rfl, ha, hd, ⟨x, r, hx, hxs⟩, ⟨r', y, hy, hys⟩⟩ := strip_parts t hb
      refine ⟨a, m, d, rfl, ha, hd, ⟨x, by rw [hx]; simp, hxs⟩, ?_⟩
      intro z hz hze
      rw [count_append_blank _ _ _ hd, count_blank_append _ _ ha] at h1
      obtain ⟨p, q, hpq⟩ := List.append_of_mem hz
      have hzs := lineEnd_space z hze
      have hp : ∃ x ∈ p, isSpace x = false := by
        cases p with
        | nil =>
          rw [hpq, List.nil_append, List.cons.injEq] at hx
          rw [hx.1, hxs] at hzs
          cases hzs
        | cons p0 p =>
          rw [hpq, List.cons_append, List.cons.injEq] at hx
          exact ⟨p0, by simp, by rw [hx.1]; exact hxs⟩
      have hq : ∃ x ∈ q, isSpace x = false := by
        rcases List.eq_nil_or_concat q with rfl | ⟨q', e, rfl⟩
        · rw [hpq] at hy
          have := List.append_inj_right' hy (by simp)
          simp only [List.cons.injEq, and_true] at this
          rw [this, hys] at hzs
          cases hzs
        · refine ⟨e, by simp, ?_⟩
          rw [hpq] at hy
          have hy' : (p ++ z :: q') ++ [e] = r' ++ [y] := by simpa using hy
          have := List.append_inj_right' hy' (by simp)
          simp only [List.cons.injEq, and_true] at this
          rw [this]; exact hys
      rw [hpq] at h1
      have := count_break false p z q ((isBreak_iff z).mpr hze) (Or.inr hp) hq
      omega
  · rintro ⟨a, b, d, rfl, ha, hd, ⟨x, hx, hxs⟩, hb⟩
    rw [count_append_blank _ _ _ hd, count_blank_append _ _ ha, count_no_break]
    · rw [if_pos]
      simp only [Bool.false_or, List.any_eq_true]
      exact ⟨x, hx, by rw [hxs]; rfl⟩
    · intro y hy
      rw [← Bool.not_eq_true, isBreak_iff]
      exact hb y hy

theorem tidy_shown (t : Str) : ShownText t (tidy t) := by
  unfold tidy
  by_cases h : nonBlankLines t = 1
  · rw [if_pos h]
    exact Or.inl ⟨(one_line t).mp h, words t, hasWords t.length t (le_refl _), rfl⟩
  · rw [if_neg h]
    exact Or.inr ⟨fun h' => h ((one_line t).mpr h'), rfl⟩

end Verif.Xml
