/-
C28: line-ending normalisation.
-/
import Verif.Model.LineEnd
import Verif.Spec.LineEnd

namespace Verif.LineEnd
open Verif.LineEnd.Spec

theorem cle_plain (l rest : Str) (h : '\r' ∉ l) : cle (l ++ rest) = l ++ cle rest := by
  induction l with
  | nil => rfl
  | cons c l ih =>
    simp only [List.mem_cons, not_or] at h
    rw [List.cons_append, cle, ih h.2]
    · rfl
    · intro _ hc; exact absurd hc.symm h.1
    · intro hc; exact absurd hc.symm h.1

theorem cle_cr (rest : Str) (h : rest.head? ≠ some '\n') : cle ('\r' :: rest) = '\n' :: cle rest := by
  cases rest with
  | nil => rfl
  | cons c rest =>
    rw [cle]
    rintro r hr
    cases hr
    simp at h

/-- **C28 (line by line).** Whatever mixture of LF, CR and CRLF a text uses, normalising it keeps every
line and turns every break into one line feed. -/
theorem C28_breaks_become_lf (ls : List (Str × Break)) (last : Str) (h : WellFormed ls last) :
    cle (render ls last) = lfText ls last := by
  induction ls with
  | nil => have := cle_plain last [] h.1; simpa [render, lfText, cle] using this
  | cons x ls ih =>
    obtain ⟨l, b⟩ := x
    obtain ⟨h1, h2, h3, h4⟩ := h
    rw [render, lfText, List.append_assoc, cle_plain _ _ h1]
    congr 1
    cases b with
    | lf =>
      have := cle_plain ['\n'] (render ls last) (by decide)
      rw [ih h3] at this
      exact this
    | crlf => rw [Break.text, List.cons_append, List.cons_append, List.nil_append, cle, ih h3]
    | cr =>
      rw [Break.text, List.cons_append, List.nil_append, cle_cr, ih h3]
      intro hc
      have h4' := h4 rfl
      match ls, h3, h4', hc with
      | [], h3, _, hc =>
        rw [render] at hc
        exact h3.2 (List.mem_of_mem_head? (by rw [hc]; rfl))
      | ([], .lf) :: r, _, h4', _ => exact h4' r rfl
      | ([], .cr) :: r, _, _, hc => simp [render, Break.text] at hc
      | ([], .crlf) :: r, _, _, hc => simp [render, Break.text] at hc
      | (c :: l', b') :: r, h3, _, hc =>
        simp [render] at hc
        subst hc
        exact h3.2.1 (by simp)

/-- Every text is such a mixture (so the theorem above covers all texts). -/
theorem C28_every_text_is_lines_and_breaks (s : Str) :
    ∃ ls last, WellFormed ls last ∧ render ls last = s := by
  fun_induction cle s with
  | case1 => exact ⟨[], [], by simp [WellFormed], rfl⟩
  | case2 rest ih =>
    obtain ⟨ls, last, h, rfl⟩ := ih
    exact ⟨([], .crlf) :: ls, last, ⟨by simp, by simp, h, by simp⟩, rfl⟩
  | case3 rest hne ih =>
    obtain ⟨ls, last, h, rfl⟩ := ih
    refine ⟨([], .cr) :: ls, last, ⟨by simp, by simp, h, ?_⟩, rfl⟩
    rintro - r rfl
    exact hne _ rfl
  | case4 c rest h1 h2 ih =>
    obtain ⟨ls, last, h, rfl⟩ := ih
    by_cases hn : c = '\n'
    · subst hn
      exact ⟨([], .lf) :: ls, last, ⟨by simp, by simp, h, by simp⟩, rfl⟩
    · have hr : c ≠ '\r' := fun hc => h2 hc
      cases ls with
      | nil =>
        exact ⟨[], c :: last, ⟨by simpa [Ne.symm hr] using h.1, by simpa [Ne.symm hn] using h.2⟩, rfl⟩
      | cons x ls =>
        obtain ⟨l, b⟩ := x
        obtain ⟨a1, a2, a3, a4⟩ := h
        exact ⟨(c :: l, b) :: ls, last, ⟨by simpa [Ne.symm hr] using a1, by simpa [Ne.symm hn] using a2, a3, a4⟩, rfl⟩

/-- **C28.** No carriage return is left. -/
theorem C28_no_cr (s : Str) : '\r' ∉ cle s := by
  fun_induction cle s with
  | case1 => simp
  | case2 rest ih => simpa using ih
  | case3 rest hne ih => simpa using ih
  | case4 c rest h1 h2 ih =>
    simp only [List.mem_cons, not_or]
    exact ⟨fun hc => h2 hc.symm, ih⟩

/-- **C28.** A text without carriage returns is unchanged. -/
theorem C28_identity (s : Str) (h : '\r' ∉ s) : cle s = s := by
  have := cle_plain s [] h
  simpa [cle] using this

/-- **C28.** A second pass changes nothing. -/
theorem C28_idempotent (s : Str) : cle (cle s) = cle s := C28_identity _ (C28_no_cr s)

/-- **C28.** Loaders' results: strings, and string elements of lists and tuples, are normalised; the
length and type of a sequence and everything that is not text are kept. -/
theorem C28_sequences {α : Type} (t : Bool) (xs : List (Str ⊕ α)) :
    ∃ ys, canonicalize (.seq t xs) = .seq t ys ∧ ys.length = xs.length ∧
      ∀ i : Nat, (∀ s, xs[i]? = some (.inl s) → ys[i]? = some (.inl (cle s))) ∧
        (∀ x, xs[i]? = some (.inr x) → ys[i]? = some (.inr x)) := by
  refine ⟨_, rfl, by simp, fun i => ⟨fun s h => ?_, fun x h => ?_⟩⟩ <;> simp [h]

example : WellFormed [(c!"a", .crlf), (c!"", .cr), (c!"b", .lf)] c!"c" ∧
    cle c!"a\r\n\rb\nc" = c!"a\n\nb\nc" := by
  refine ⟨by simp [WellFormed], rfl⟩

end Verif.LineEnd
