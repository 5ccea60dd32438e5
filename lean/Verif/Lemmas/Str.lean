import Verif.Model.Py

namespace Verif.Py

theorem dropWhile_all {α} (p : α → Bool) (l r : List α) (h : ∀ x ∈ l, p x = true) :
    (l ++ r).dropWhile p = r.dropWhile p := by
  induction l with
  | nil => rfl
  | cons a l ih => simp_all

theorem dropWhile_head {α} (p : α → Bool) (l : List α) (h : ∀ x, l.head? = some x → p x = false) :
    l.dropWhile p = l := by
  cases l with
  | nil => rfl
  | cons a l => simp_all

theorem strip_pad (w₁ l w₂ : Str) (h₁ : ∀ c ∈ w₁, isSpace c = true) (h₂ : ∀ c ∈ w₂, isSpace c = true)
    (hh : ∀ c, l.head? = some c → isSpace c = false)
    (ht : ∀ c, l.getLast? = some c → isSpace c = false) :
    strip (w₁ ++ l ++ w₂) = l := by
  unfold strip lstrip rstrip
  rw [List.append_assoc, dropWhile_all _ _ _ h₁]
  by_cases hl : l = []
  · subst hl
    have : ([] ++ w₂).dropWhile isSpace = [] := by
      have := dropWhile_all isSpace w₂ [] h₂
      simpa using this
    rw [this]; rfl
  · have : (l ++ w₂).dropWhile isSpace = l ++ w₂ := by
      apply dropWhile_head
      intro x hx
      apply hh
      rw [← hx]
      cases l with
      | nil => exact absurd rfl hl
      | cons a l => rfl
    rw [this, List.reverse_append, dropWhile_all _ _ _ (by simpa using h₂)]
    rw [dropWhile_head _ _ (by intro x hx; apply ht; rw [← hx]; simp), List.reverse_reverse]

theorem strip_self (l : Str) (hh : ∀ c, l.head? = some c → isSpace c = false)
    (ht : ∀ c, l.getLast? = some c → isSpace c = false) : strip l = l := by
  have := strip_pad [] l [] (by simp) (by simp) hh ht
  simpa using this

theorem strip_blank (w : Str) (h : ∀ c ∈ w, isSpace c = true) : strip w = [] := by
  have := strip_pad w [] [] h (by simp) (by simp) (by simp)
  simpa using this

theorem splitOn_ne_nil (sep : Char) (s : Str) : splitOn sep s ≠ [] := by
  induction s with
  | nil => simp [splitOn]
  | cons c cs ih =>
    unfold splitOn
    split
    · simp
    · split <;> simp

theorem splitOn_notMem (sep : Char) (s : Str) (h : sep ∉ s) : splitOn sep s = [s] := by
  induction s with
  | nil => rfl
  | cons c cs ih =>
    simp only [List.mem_cons, not_or] at h
    unfold splitOn
    rw [if_neg (fun e => h.1 e.symm), ih h.2]

theorem splitOn_append (sep : Char) (a b : Str) (h : sep ∉ a) :
    splitOn sep (a ++ sep :: b) = a :: splitOn sep b := by
  induction a with
  | nil => simp [splitOn]
  | cons c cs ih =>
    simp only [List.mem_cons, not_or] at h
    simp only [List.cons_append]
    rw [splitOn, if_neg (fun e => h.1 e.symm), ih h.2]

theorem splitOn_join (sep : Char) (ls : List Str) (hne : ls ≠ []) (h : ∀ l ∈ ls, sep ∉ l) :
    splitOn sep (join [sep] ls) = ls := by
  induction ls with
  | nil => exact absurd rfl hne
  | cons l ls ih =>
    cases ls with
    | nil => simpa [join] using splitOn_notMem sep l (h l (by simp))
    | cons m ls =>
      have : join [sep] (l :: m :: ls) = l ++ sep :: join [sep] (m :: ls) := by simp [join]
      rw [this, splitOn_append _ _ _ (h l (by simp)), ih (by simp) (fun x hx => h x (by simp [hx]))]

theorem startsWith_iff (s p : Str) : startsWith s p = true ↔ ∃ r, s = p ++ r := by
  unfold startsWith
  rw [List.isPrefixOf_iff_prefix]
  exact ⟨fun ⟨r, h⟩ => ⟨r, h.symm⟩, fun ⟨r, h⟩ => ⟨r, h.symm⟩⟩

theorem upperC_eq_iff (c : Char) : upperC c = c ↔ ¬ ('a'.toNat ≤ c.toNat ∧ c.toNat ≤ 'z'.toNat) := by
  unfold upperC
  split
  · rename_i h
    constructor
    · intro e
      exfalso
      have hv : Nat.isValidChar (c.toNat - 32) := by
        simp at h; left; omega
      have : (Char.ofNat (c.toNat - 32)).toNat = c.toNat - 32 := by
        rw [Char.ofNat, dif_pos hv]; rfl
      rw [e] at this
      simp at h
      omega
    · intro h2; exact absurd h h2
  · rename_i h
    simp only [true_iff]
    exact h

theorem upper_eq_iff (s : Str) :
    upper s = s ↔ ∀ c ∈ s, ¬ ('a'.toNat ≤ c.toNat ∧ c.toNat ≤ 'z'.toNat) := by
  unfold upper
  induction s with
  | nil => simp
  | cons a s ih => simp only [List.map_cons, List.cons.injEq, ih, upperC_eq_iff, List.forall_mem_cons]

end Verif.Py
