/-
Lemmas about the tokenizer of delimited tables.
-/
import Verif.Spec.AsciiTable
import Mathlib.Data.List.TakeDrop
import Mathlib.Data.List.TakeWhile
import Mathlib.Data.List.Forall2

namespace Verif.Ascii
open Verif.Py Verif.Ascii.Spec

/-- a separator that is no line break or quote -/
def Plain (sep : Char) : Prop := sep ≠ '\n' ∧ sep ≠ '\r' ∧ sep ≠ '"'

theorem separates_ok {d : Option Str} {sep : Char} (h : Separates d sep) : delimiter d = .ok sep ∧ Plain sep := by
  cases h <;> refine ⟨by decide, by decide, by decide, by decide⟩

/-- a field has been read -/
def AtEnd (k : Tok) (v : Str) (row : List Str) (done : List (List Str)) : Prop :=
  k.field = v ∧ k.row = row ∧ k.done = done ∧ (k.state = .startField ∨ k.state = .inField ∨ k.state = .quoteInQuoted)

theorem step_end {sep c : Char} {k : Tok} {v : Str} {row : List Str} {done : List (List Str)} (h : AtEnd k v row done) (hc : c ≠ '"')
    (he : c = '\n' ∨ c = '\r' ∨ c = sep) : ∃ other, step sep k c = orEnd sep c k other := by
  obtain ⟨_, _, _, hs | hs | hs⟩ := h
  · exact ⟨_, by unfold step; rw [hs]; simp only [startField, if_neg hc]; rfl⟩
  · exact ⟨_, by unfold step; rw [hs]⟩
  · exact ⟨_, by unfold step; rw [hs]; simp only [if_neg hc]; rfl⟩

theorem step_sep {sep : Char} (hp : Plain sep) {k : Tok} {v : Str} {row : List Str} {done : List (List Str)} (h : AtEnd k v row done) :
    step sep k sep = ⟨.startField, [], row ++ [v], done⟩ := by
  obtain ⟨other, ho⟩ := step_end (sep := sep) h hp.2.2 (Or.inr (Or.inr rfl))
  rw [ho]
  obtain ⟨h1, h2, h3, _⟩ := h
  unfold orEnd
  rw [if_neg hp.1, if_neg hp.2.1, if_pos rfl]
  simp [endField, h1, h2, h3]

theorem step_lf {sep : Char} {k : Tok} {v : Str} {row : List Str} {done : List (List Str)} (h : AtEnd k v row done) :
    step sep k '\n' = ⟨.startRecord, [], [], done ++ [row ++ [v]]⟩ := by
  obtain ⟨other, ho⟩ := step_end (sep := sep) h (by decide) (Or.inl rfl)
  rw [ho]
  obtain ⟨h1, h2, h3, _⟩ := h
  unfold orEnd
  rw [if_pos rfl]
  simp [endField, endLine, h1, h2, h3]

theorem step_crlf {sep : Char} {k : Tok} {v : Str} {row : List Str} {done : List (List Str)} (h : AtEnd k v row done) :
    step sep (step sep k '\r') '\n' = ⟨.startRecord, [], [], done ++ [row ++ [v]]⟩ := by
  obtain ⟨other, ho⟩ := step_end (sep := sep) h (by decide) (Or.inr (Or.inl rfl))
  rw [ho]
  obtain ⟨h1, h2, h3, _⟩ := h
  unfold orEnd
  rw [if_neg (by decide), if_pos rfl]
  simp [step, endField, endLine, h1, h2, h3]

theorem finish_end {k : Tok} {v : Str} {row : List Str} {done : List (List Str)} (h : AtEnd k v row done) :
    finish k = .ok (done ++ [row ++ [v]]) := by
  obtain ⟨h1, h2, h3, hs | hs | hs⟩ := h <;> simp [finish, hs, endLine, endField, h1, h2, h3]

/-- characters of a field outside quotes -/
theorem fold_in {sep : Char} (w : Str) (hs : sep ∉ w) (hl : OneLine w) (f : Str) (row : List Str) (done : List (List Str)) :
    w.foldl (step sep) ⟨.inField, f, row, done⟩ = ⟨.inField, f ++ w, row, done⟩ := by
  induction w generalizing f with
  | nil => simp
  | cons c w ih =>
    obtain ⟨h1, h2⟩ := hl
    rw [List.mem_cons, not_or] at hs h1 h2
    rw [List.foldl_cons]
    have : step sep ⟨.inField, f, row, done⟩ c = ⟨.inField, f ++ [c], row, done⟩ := by
      simp only [step, orEnd]
      rw [if_neg (Ne.symm h1.1), if_neg (Ne.symm h2.1), if_neg (Ne.symm hs.1)]
      rfl
    rw [this, ih hs.2 ⟨h1.2, h2.2⟩]
    simp

/-- characters between quotes -/
theorem fold_quoted {sep : Char} (v : Str) (f : Str) (row : List Str) (done : List (List Str)) :
    (doubled v).foldl (step sep) ⟨.quoted, f, row, done⟩ = ⟨.quoted, f ++ v, row, done⟩ := by
  induction v generalizing f with
  | nil => simp [doubled]
  | cons c v ih =>
    have he : doubled (c :: v) = (if c = '"' then ['"', '"'] else [c]) ++ doubled v := rfl
    rw [he, List.foldl_append]
    have : (if c = '"' then ['"', '"'] else [c]).foldl (step sep) ⟨.quoted, f, row, done⟩ = ⟨.quoted, f ++ [c], row, done⟩ := by
      by_cases hc : c = '"'
      · subst hc
        rfl
      · rw [if_neg hc]
        simp only [List.foldl_cons, List.foldl_nil, step, if_neg hc]
        rfl
    rw [this, ih]
    simp

theorem fold_field {sep : Char} {w v : Str} (h : Written sep w v) (hl : OneLine w) (row : List Str) (done : List (List Str)) :
    AtEnd (w.foldl (step sep) ⟨.startField, [], row, done⟩) v row done := by
  cases h with
  | plain hs hq =>
    cases w with
    | nil => exact ⟨rfl, rfl, rfl, Or.inl rfl⟩
    | cons c w =>
      obtain ⟨h1, h2⟩ := hl
      rw [List.mem_cons, not_or] at hs h1 h2
      rw [List.foldl_cons]
      have hq : c ≠ '"' := by simpa using hq
      have : step sep ⟨.startField, [], row, done⟩ c = ⟨.inField, [c], row, done⟩ := by
        simp only [step, startField, orEnd]
        rw [if_neg hq, if_neg (Ne.symm h1.1), if_neg (Ne.symm h2.1), if_neg (Ne.symm hs.1)]
        rfl
      rw [this, fold_in w hs.2 ⟨h1.2, h2.2⟩]
      exact ⟨rfl, rfl, rfl, Or.inr (Or.inl rfl)⟩
  | quoted hs hq =>
    rename_i u more
    have h1 : step sep ⟨.startField, [], row, done⟩ '"' = ⟨.quoted, [], row, done⟩ := rfl
    have h2 : step sep ⟨.quoted, u, row, done⟩ '"' = ⟨.quoteInQuoted, u, row, done⟩ := rfl
    have h3 : (['"'] ++ doubled u ++ ['"']).foldl (step sep) ⟨.startField, [], row, done⟩ = ⟨.quoteInQuoted, u, row, done⟩ := by
      rw [List.foldl_append, List.foldl_append]
      simp only [List.foldl_cons, List.foldl_nil]
      rw [h1, fold_quoted, List.nil_append, h2]
    rw [List.foldl_append, h3]
    cases more with
    | nil => exact ⟨by simp, rfl, rfl, Or.inr (Or.inr rfl)⟩
    | cons c more =>
      obtain ⟨h1, h2⟩ := hl
      simp only [List.mem_append, not_or] at h1 h2
      have h1 := h1.2
      have h2 := h2.2
      rw [List.mem_cons, not_or] at hs h1 h2
      rw [List.foldl_cons]
      have hq : c ≠ '"' := by simpa using hq
      have : step sep ⟨.quoteInQuoted, u, row, done⟩ c = ⟨.inField, u ++ [c], row, done⟩ := by
        simp only [step, orEnd]
        rw [if_neg hq, if_neg (Ne.symm h1.1), if_neg (Ne.symm h2.1), if_neg (Ne.symm hs.1)]
        rfl
      rw [this, fold_in more hs.2 ⟨h1.2, h2.2⟩]
      exact ⟨by simp, rfl, rfl, Or.inr (Or.inl rfl)⟩

theorem oneLine_append {a b : Str} : OneLine (a ++ b) ↔ OneLine a ∧ OneLine b := by
  unfold OneLine
  simp only [List.mem_append, not_or]
  tauto

theorem join_cons2 (sep : Str) (w w' : Str) (ws : List Str) : join sep (w :: w' :: ws) = w ++ sep ++ join sep (w' :: ws) := rfl

/-- the fields of a line -/
theorem fold_fields {sep : Char} (hp : Plain sep) (ws vs : List Str) (h : List.Forall₂ (Written sep) ws vs) (hne : ws ≠ [])
    (hl : OneLine (join [sep] ws)) (row : List Str) (done : List (List Str)) :
    ∃ v row', row' ++ [v] = row ++ vs ∧ AtEnd ((join [sep] ws).foldl (step sep) ⟨.startField, [], row, done⟩) v row' done := by
  induction h generalizing row with
  | nil => exact absurd rfl hne
  | @cons w v ws vs hw hws ih =>
    cases hws with
    | nil =>
      simp only [join] at hl ⊢
      exact ⟨v, row, rfl, fold_field hw hl row done⟩
    | @cons w' v' ws vs hw' hws' =>
      rw [join_cons2, oneLine_append, oneLine_append] at hl
      obtain ⟨u, row', h1, h2⟩ := ih (by simp) hl.2 (row ++ [v])
      refine ⟨u, row', by rw [h1]; simp, ?_⟩
      rw [join_cons2, List.foldl_append, List.foldl_append, List.foldl_cons, List.foldl_nil,
        step_sep hp (fold_field hw hl.1.1 row done)]
      exact h2

theorem blank_iff (sep c : Char) : blank sep c = true ↔ (c = ' ' ∨ c = '\t') ∧ c ≠ sep := by
  unfold blank
  rw [decide_eq_true_eq]

/-- blanks at the start of a line -/
theorem fold_blanks {sep : Char} (bs : Str) (h : Blank sep bs) (f : Str) (done : List (List Str)) :
    bs.foldl (step sep) ⟨.blankLine, f, [], done⟩ = ⟨.blankLine, f ++ bs, [], done⟩ ∧
    bs.foldl (step sep) ⟨.inField, f, [], done⟩ = ⟨.inField, f ++ bs, [], done⟩ := by
  induction bs generalizing f with
  | nil => simp
  | cons c bs ih =>
    have hc := h c List.mem_cons_self
    have ih := ih (fun x hx => h x (List.mem_cons_of_mem _ hx)) (f ++ [c])
    have n1 : c ≠ '\n' := by rintro rfl; revert hc; simp
    have n2 : c ≠ '\r' := by rintro rfl; revert hc; simp
    have hb := (blank_iff sep c).2 hc
    constructor
    · rw [List.foldl_cons]
      have : step sep ⟨.blankLine, f, [], done⟩ c = ⟨.blankLine, f ++ [c], [], done⟩ := by
        simp only [step, if_neg n1, if_neg n2, if_pos hb]
        rfl
      rw [this, ih.1]
      simp
    · rw [List.foldl_cons]
      have : step sep ⟨.inField, f, [], done⟩ c = ⟨.inField, f ++ [c], [], done⟩ := by
        simp only [step, orEnd, if_neg n1, if_neg n2, if_neg hc.2]
        rfl
      rw [this, ih.2]
      simp

/-- a line that is not blank is read as its fields -/
theorem fold_record {sep : Char} (hp : Plain sep) (l : Str) (hl : OneLine l) (hb : ¬ Blank sep l) (done : List (List Str)) :
    l.foldl (step sep) ⟨.startRecord, [], [], done⟩ = l.foldl (step sep) ⟨.startField, [], [], done⟩ := by
  cases l with
  | nil => exact absurd (fun c hc => absurd hc List.not_mem_nil) hb
  | cons c l =>
    obtain ⟨h1, h2⟩ := hl
    rw [List.mem_cons, not_or] at h1 h2
    rw [List.foldl_cons, List.foldl_cons]
    by_cases hc : blank sep c = true
    · have hc' := (blank_iff sep c).1 hc
      have hq : c ≠ '"' := by
        rintro rfl
        revert hc'
        simp
      have s1 : step sep ⟨.startRecord, [], [], done⟩ c = ⟨.blankLine, [c], [], done⟩ := by
        simp only [step, startRecord, if_neg (Ne.symm h1.1), if_neg (Ne.symm h2.1), if_pos hc]
        rfl
      have s2 : step sep ⟨.startField, [], [], done⟩ c = ⟨.inField, [c], [], done⟩ := by
        simp only [step, startField, orEnd, if_neg hq, if_neg (Ne.symm h1.1), if_neg (Ne.symm h2.1), if_neg hc'.2]
        rfl
      rw [s1, s2]
      -- the first character that is not blank
      have hex : ∃ x ∈ l, blank sep x = false := by
        by_contra hcon
        push Not at hcon
        refine hb (fun x hx => ?_)
        rcases List.mem_cons.1 hx with rfl | hx
        · exact hc'
        · exact (blank_iff sep x).1 (by simpa using hcon x hx)
      have hsplit : l = l.takeWhile (fun x => blank sep x) ++ l.dropWhile (fun x => blank sep x) := List.takeWhile_append_dropWhile.symm
      have hbs : Blank sep (l.takeWhile (fun x => blank sep x)) := fun x hx => (blank_iff sep x).1 (List.mem_takeWhile_imp hx)
      cases hd : l.dropWhile (fun x => blank sep x) with
      | nil =>
        rw [List.dropWhile_eq_nil_iff] at hd
        obtain ⟨x, hx, hx'⟩ := hex
        rw [hd x hx] at hx'
        cases hx'
      | cons x rest =>
        have hx : blank sep x = false := by
          have := List.head?_dropWhile_not (fun x => blank sep x) l
          rw [hd] at this
          simpa using this
        rw [hsplit, hd, List.foldl_append, List.foldl_append, (fold_blanks _ hbs [c] done).1, (fold_blanks _ hbs [c] done).2,
          List.foldl_cons, List.foldl_cons]
        have hxl : x ∈ l := by
          rw [hsplit, hd]
          simp
        have m1 : x ≠ '\n' := fun e => h1.2 (e ▸ hxl)
        have m2 : x ≠ '\r' := fun e => h2.2 (e ▸ hxl)
        congr 1
        simp only [step, orEnd, if_neg m1, if_neg m2, hx, Bool.false_eq_true, if_false]
        rfl
    · congr 1
      simp only [step, startRecord, if_neg (Ne.symm h1.1), if_neg (Ne.symm h2.1), if_neg hc]
      simp only [startField, orEnd, endLine, endField, push]

/-- a blank line -/
theorem fold_blank {sep : Char} (l : Str) (hb : Blank sep l) (done : List (List Str)) :
    ∃ f, (l.foldl (step sep) ⟨.startRecord, [], [], done⟩ = ⟨.blankLine, f, [], done⟩ ∨
      (f = [] ∧ l.foldl (step sep) ⟨.startRecord, [], [], done⟩ = ⟨.startRecord, f, [], done⟩)) := by
  cases l with
  | nil => exact ⟨[], Or.inr ⟨rfl, rfl⟩⟩
  | cons c l =>
    have hc := hb c List.mem_cons_self
    have n1 : c ≠ '\n' := by rintro rfl; revert hc; simp
    have n2 : c ≠ '\r' := by rintro rfl; revert hc; simp
    refine ⟨[c] ++ l, Or.inl ?_⟩
    rw [List.foldl_cons]
    have : step sep ⟨.startRecord, [], [], done⟩ c = ⟨.blankLine, [c], [], done⟩ := by
      simp only [step, startRecord, if_neg n1, if_neg n2, if_pos ((blank_iff sep c).2 hc)]
      rfl
    rw [this, (fold_blanks l (fun x hx => hb x (List.mem_cons_of_mem _ hx)) [c] done).1]

theorem filter_cons_blank {sep : Char} {l : Str} {ls : List Str} (h : Blank sep l) :
    (l :: ls).filter (fun l => ¬ Blank sep l) = ls.filter (fun l => ¬ Blank sep l) := List.filter_cons_of_neg (by simpa using h)

theorem filter_cons_full {sep : Char} {l : Str} {ls : List Str} (h : ¬ Blank sep l) :
    (l :: ls).filter (fun l => ¬ Blank sep l) = l :: ls.filter (fun l => ¬ Blank sep l) := List.filter_cons_of_pos (by simpa using h)

/-- the lines of a text are read as their fields -/
theorem fold_text {sep : Char} (hp : Plain sep) {text : Str} {lines : List Str} (h : HasLines text lines) (rows : List (List Str))
    (hr : Delimited sep lines rows) (done : List (List Str)) :
    finish (text.foldl (step sep) ⟨.startRecord, [], [], done⟩) = .ok (done ++ rows) := by
  unfold Delimited at hr
  induction h generalizing rows done with
  | nil =>
    cases hr
    simp [finish]
  | @last l hl hne =>
    by_cases hb : Blank sep l
    · rw [filter_cons_blank hb] at hr
      cases hr
      obtain ⟨f, h | ⟨_, h⟩⟩ := fold_blank l hb done <;> rw [h] <;> simp [finish]
    · rw [filter_cons_full hb] at hr
      obtain ⟨vs, rows', hf, hr', rfl⟩ := List.forall₂_cons_left_iff.1 hr
      cases hr'
      obtain ⟨ws, hws, hw, rfl⟩ := hf
      rw [fold_record hp _ hl hb]
      obtain ⟨v, row', h1, h2⟩ := fold_fields hp ws vs hw hws hl [] done
      rw [finish_end h2, h1]
      rfl
  | @line l e text ls hl he hls ih =>
    rw [List.foldl_append, List.foldl_append]
    by_cases hb : Blank sep l
    · rw [filter_cons_blank hb] at hr
      rw [← ih rows hr done]
      congr 2
      obtain ⟨f, h | ⟨rfl, h⟩⟩ := fold_blank l hb done <;> rw [h] <;> rcases he with rfl | rfl <;> rfl
    · rw [filter_cons_full hb] at hr
      obtain ⟨vs, rows', hf, hr', rfl⟩ := List.forall₂_cons_left_iff.1 hr
      obtain ⟨ws, hws, hw, rfl⟩ := hf
      rw [fold_record hp _ hl hb]
      obtain ⟨v, row', h1, h2⟩ := fold_fields hp ws vs hw hws hl [] done
      have he' : e.foldl (step sep) ((join [sep] ws).foldl (step sep) ⟨.startField, [], [], done⟩) =
          ⟨.startRecord, [], [], done ++ [vs]⟩ := by
        rw [List.nil_append] at h1
        rw [← h1]
        rcases he with rfl | rfl
        · exact step_lf h2
        · exact step_crlf h2
      rw [he', ih rows' hr' (done ++ [vs])]
      simp

/-- the tokenizer gives the fields of the lines that are not blank -/
theorem tokenize_text {sep : Char} (hp : Plain sep) {text : Str} {lines : List Str} (h : HasLines text lines) {rows : List (List Str)}
    (hr : Delimited sep lines rows) : tokenize sep text = .ok rows := by
  have := fold_text hp h rows hr []
  simpa [tokenize] using this

end Verif.Ascii
