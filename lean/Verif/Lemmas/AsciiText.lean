/-
Lemmas about the text of a table, its lines, and stripping.
-/
import Verif.Lemmas.AsciiTok
import Verif.Lemmas.Str
import Verif.Props.Locate

namespace Verif.Ascii
open Verif.Py Verif.Ascii.Spec Verif.Locate Verif.Literal

/-! ### stripping -/

theorem mem_dropWhile_of {α : Type} {p : α → Bool} {c : α} {s : List α} (h : c ∈ s) (hc : p c = false) : c ∈ s.dropWhile p := by
  induction s with
  | nil => cases h
  | cons a s ih =>
    rw [List.dropWhile_cons]
    by_cases ha : p a = true
    · rw [if_pos ha]
      rcases List.mem_cons.1 h with rfl | h
      · rw [hc] at ha
        cases ha
      · exact ih h
    · rw [if_neg ha]
      exact h

theorem mem_stripChars {cs : List Char} {c : Char} {s : Str} (h : c ∈ s) (hc : c ∉ cs) : c ∈ stripChars cs s := by
  unfold stripChars
  rw [List.mem_reverse]
  refine mem_dropWhile_of ?_ (by simpa using hc)
  rw [List.mem_reverse]
  exact mem_dropWhile_of h (by simpa using hc)

theorem strip_ne_nil {s : Str} {c : Char} (h : c ∈ s) (hc : isSpace c = false) : strip s ≠ [] := by
  have h1 : c ∈ strip s := by
    unfold strip rstrip lstrip
    rw [List.mem_reverse]
    refine mem_dropWhile_of ?_ hc
    rw [List.mem_reverse]
    exact mem_dropWhile_of h hc
  intro e
  rw [e] at h1
  cases h1

theorem strip_nil : strip [] = [] := rfl

theorem stripChars_all {cs : List Char} {s : Str} (h : ∀ c ∈ s, c ∈ cs) : stripChars cs s = [] := by
  unfold stripChars
  have : s.dropWhile (fun c => decide (c ∈ cs)) = [] := by
    rw [List.dropWhile_eq_nil_iff]
    intro c hc
    simpa using h c hc
  rw [this]
  rfl

theorem dropWhile_head {α : Type} (p : α → Bool) (s : List α) (c : α) (h : (s.dropWhile p).head? = some c) : p c = false := by
  have := List.head?_dropWhile_not p s
  rw [h] at this
  simpa using this

theorem trimmed_strip (cs : List Char) (s : Str) : Trimmed cs s (stripChars cs s) := by
  unfold stripChars
  generalize hd : s.dropWhile (fun c => decide (c ∈ cs)) = d
  refine ⟨s.takeWhile (fun c => decide (c ∈ cs)), (d.reverse.takeWhile (fun c => decide (c ∈ cs))).reverse, ?_, ?_, ?_, ?_, ?_⟩
  · rw [List.append_assoc, ← List.reverse_append, List.takeWhile_append_dropWhile, List.reverse_reverse, ← hd,
      List.takeWhile_append_dropWhile]
  · intro c hc
    simpa using List.mem_takeWhile_imp hc
  · intro c hc
    rw [List.mem_reverse] at hc
    simpa using List.mem_takeWhile_imp hc
  · intro c hc
    -- the head is the head of `d`
    have hne : (d.reverse.dropWhile (fun c => decide (c ∈ cs))).reverse ≠ [] := by
      intro e
      rw [e] at hc
      cases hc
    have hsplit : d = (d.reverse.dropWhile (fun c => decide (c ∈ cs))).reverse ++ (d.reverse.takeWhile (fun c => decide (c ∈ cs))).reverse := by
      rw [← List.reverse_append, List.takeWhile_append_dropWhile, List.reverse_reverse]
    have : d.head? = some c := by
      rw [hsplit, List.head?_append, hc]
      rfl
    rw [← hd] at this
    simpa using dropWhile_head _ _ _ this
  · intro c hc
    rw [List.getLast?_reverse] at hc
    simpa using dropWhile_head _ _ _ hc

theorem stripChars_append {cs : List Char} (s e : Str) (he : ∀ c ∈ e, c ∈ cs) : stripChars cs (s ++ e) = stripChars cs s := by
  by_cases hs : ∀ c ∈ s, c ∈ cs
  · rw [stripChars_all hs, stripChars_all]
    intro c hc
    rcases List.mem_append.1 hc with h | h
    · exact hs c h
    · exact he c h
  · unfold stripChars
    have h1 : (s ++ e).dropWhile (fun c => decide (c ∈ cs)) = s.dropWhile (fun c => decide (c ∈ cs)) ++ e := by
      rw [List.dropWhile_append, if_neg]
      intro h
      refine hs (fun c hc => ?_)
      rw [List.isEmpty_iff, List.dropWhile_eq_nil_iff] at h
      simpa using h c hc
    rw [h1, List.reverse_append, List.dropWhile_append, if_pos]
    rw [List.isEmpty_iff, List.dropWhile_eq_nil_iff]
    intro c hc
    rw [List.mem_reverse] at hc
    simpa using he c hc

/-- in a text without line breaks, stripping line breaks too makes no difference -/
theorem trimmed_pads {s t : Str} (h : Trimmed ('\r' :: '\n' :: pads) s t) (hs : OneLine s) : Trimmed pads s t := by
  obtain ⟨a, b, rfl, h1, h2, h3, h4⟩ := h
  rw [oneLine_append, oneLine_append] at hs
  have aux : ∀ (u : Str), OneLine u → ∀ c ∈ u, c ∈ '\r' :: '\n' :: pads → c ∈ pads := by
    intro u hu c hc h
    rcases List.mem_cons.1 h with rfl | h
    · exact absurd hc hu.2
    · rcases List.mem_cons.1 h with rfl | h
      · exact absurd hc hu.1
      · exact h
  exact ⟨a, b, rfl, fun c hc => aux a hs.1.1 c hc (h1 c hc), fun c hc => aux b hs.2 c hc (h2 c hc),
    fun c hc h => h3 c hc (by simp [h]), fun c hc h => h4 c hc (by simp [h])⟩

/-! ### lines -/

/-- a line with its end -/
def Ended (l f : Str) : Prop := OneLine l ∧ ∃ e, f = l ++ e ∧ (e = [] ∨ e = c!"\n" ∨ e = c!"\r\n")

theorem fileLines_lf {l : Str} (h : '\n' ∉ l) (rest : Str) : fileLines (l ++ c!"\n" ++ rest) = (l ++ c!"\n") :: fileLines rest := by
  rw [List.append_assoc]
  exact fileLines_plain l h rest

theorem fileLines_last {l : Str} (h : '\n' ∉ l) (hne : l ≠ []) : fileLines l = [l] := by
  induction l with
  | nil => exact absurd rfl hne
  | cons c l ih =>
    rw [List.mem_cons, not_or] at h
    unfold fileLines
    rw [if_neg (Ne.symm h.1)]
    cases l with
    | nil => rfl
    | cons d l =>
      rw [ih h.2 (by simp)]

/-- the lines of a file -/
theorem fileLines_ended {text : Str} {lines : List Str} (h : HasLines text lines) : List.Forall₂ Ended lines (fileLines text) := by
  induction h with
  | nil => exact .nil
  | @last l hl hne =>
    rw [fileLines_last hl.1 hne]
    exact .cons ⟨hl, [], by simp, Or.inl rfl⟩ .nil
  | @line l e text ls hl he hls ih =>
    rcases he with rfl | rfl
    · rw [fileLines_lf hl.1]
      exact .cons ⟨hl, _, rfl, Or.inr (Or.inl rfl)⟩ ih
    · have : l ++ c!"\r\n" ++ text = (l ++ c!"\r") ++ c!"\n" ++ text := by simp
      rw [this, fileLines_lf (by simp [hl.1])]
      refine .cons ⟨hl, c!"\r\n", by simp, Or.inr (Or.inr rfl)⟩ ih

/-- the lines that are not empty -/
def full (lines : List Str) : List Str := lines.filter (fun l => l ≠ [])

theorem oneLine_nil : OneLine [] := by simp [OneLine]

theorem full_cons (l : Str) {a b : List Str} (h : full a = full b) : full (l :: a) = full (l :: b) := by
  unfold full at *
  rw [List.filter_cons, List.filter_cons, h]

theorem full_nil_cons (a : List Str) : full ([] :: a) = full a := by simp [full]

/-- lines of a file, with CRLF between them -/
theorem join_lines {lines fs : List Str} (h : List.Forall₂ Ended lines fs) :
    ∃ lines', HasLines (join c!"\r\n" fs) lines' ∧ full lines' = full lines := by
  induction h with
  | nil => exact ⟨[], .nil, rfl⟩
  | @cons l f lines fs hlf hr ih =>
    obtain ⟨hl, e, rfl, he⟩ := hlf
    cases hr with
    | nil =>
      simp only [join]
      rcases he with rfl | he
      · rw [List.append_nil]
        by_cases hn : l = []
        · subst hn
          exact ⟨[], .nil, rfl⟩
        · exact ⟨[l], .last hl hn, rfl⟩
      · have := HasLines.line hl he .nil
        rw [List.append_nil] at this
        exact ⟨[l], this, rfl⟩
    | @cons l' f' lines' fs' h1 h2 =>
      obtain ⟨L, h3, h4⟩ := ih
      rw [join_cons2]
      rcases he with rfl | he
      · rw [List.append_nil]
        exact ⟨l :: L, .line hl (Or.inr rfl) h3, full_cons l h4⟩
      · have := HasLines.line hl he (HasLines.line oneLine_nil (Or.inr rfl) h3)
        refine ⟨l :: [] :: L, by simpa using this, full_cons l ?_⟩
        rw [full_nil_cons, h4]

theorem forall₂_drop {α β : Type} {R : α → β → Prop} {l : List α} {m : List β} (h : List.Forall₂ R l m) (n : Nat) :
    List.Forall₂ R (l.drop n) (m.drop n) := List.forall₂_drop n h

theorem forall₂_take {α β : Type} {R : α → β → Prop} {l : List α} {m : List β} (h : List.Forall₂ R l m) (n : Nat) :
    List.Forall₂ R (l.take n) (m.take n) := List.forall₂_take n h

/-- the text of a table has its lines (and empty ones) -/
theorem textOf_lines {content : Str} {p : TablePos} {lines : List Str} (h : TableLines content p lines) :
    ∃ text lines', textOf content p = .ok text ∧ HasLines text lines' ∧ full lines' = full lines := by
  cases h with
  | @bytes start n lines h =>
    exact ⟨_, lines, (C42_table_bytes content start n).1, h, rfl⟩
  | @bytesToEnd start lines h =>
    exact ⟨_, lines, (C42_table_bytes content start 0).2, h, rfl⟩
  | @rows start n lines h hle =>
    have hf := fileLines_ended h
    obtain ⟨L, h1, h2⟩ := join_lines (forall₂_take (forall₂_drop hf start) n)
    refine ⟨_, L, ?_, h1, h2⟩
    have hlen := hf.length_eq
    have hs : ((start : Int)).toNat = start := by omega
    have hn : ((n : Int)).toNat = n := by omega
    simp only [textOf, if_true, asciiTextByRows, hs, hn]
    rw [if_neg (by omega), if_neg (by simp only [List.length_drop]; omega)]
  | @rowsToEnd start lines h hle =>
    have hf := fileLines_ended h
    obtain ⟨L, h1, h2⟩ := join_lines (forall₂_drop hf start)
    refine ⟨_, L, ?_, h1, h2⟩
    have hlen := hf.length_eq
    have hs : ((start : Int)).toNat = start := by omega
    simp only [textOf, if_true, asciiTextByRows, hs]
    rw [if_neg (by omega)]

theorem blank_nil (sep : Char) : Blank sep [] := fun _ h => absurd h List.not_mem_nil

/-- empty lines do not matter -/
theorem delimited_full {sep : Char} {lines lines' : List Str} {rows : List (List Str)} (h : Delimited sep lines rows)
    (he : full lines' = full lines) : Delimited sep lines' rows := by
  have aux : ∀ ls : List Str, ls.filter (fun l => ¬ Blank sep l) = (full ls).filter (fun l => ¬ Blank sep l) := by
    intro ls
    unfold full
    rw [List.filter_filter]
    refine List.filter_congr (fun l _ => ?_)
    by_cases hl : l = []
    · subst hl
      simp [blank_nil]
    · simp [hl]
  unfold Delimited at *
  rw [aux, he, ← aux]
  exact h

/-! ### fixed-width lines -/

theorem pySlice_at (s : Str) (a : Int) (n : Nat) (ha : 0 ≤ a) : Bits.pySlice s a (a + n) = (s.drop a.toNat).take n := by
  unfold Bits.pySlice Bits.clampIx
  rw [if_neg (by omega), if_neg (by omega), List.drop_take]
  have h : (a + (n : Int)).toNat = a.toNat + n := by omega
  rw [h]
  by_cases hl : a.toNat ≤ s.length
  · rw [Nat.min_eq_left hl]
    by_cases hm : a.toNat + n ≤ s.length
    · rw [Nat.min_eq_left hm]
      congr 1
      omega
    · rw [Nat.min_eq_right (by omega)]
      rw [List.take_of_length_le (by simp), List.take_of_length_le (by simp; omega)]
  · rw [Nat.min_eq_right (by omega : s.length ≤ a.toNat)]
    rw [List.drop_of_length_le (le_refl _), List.drop_of_length_le (by omega : s.length ≤ a.toNat)]
    simp

/-- the end of a line makes no difference for a cell -/
theorem cell_ended {l f : Str} (h : Ended l f) (a : Int) (n : Nat) (ha : 0 ≤ a) :
    stripChars ('\r' :: '\n' :: padding) (Bits.pySlice f a (a + n)) =
      stripChars ('\r' :: '\n' :: padding) ((l.drop a.toNat).take n) := by
  obtain ⟨_, e, rfl, he⟩ := h
  rw [pySlice_at _ _ _ ha, List.drop_append, List.take_append]
  apply stripChars_append
  intro c hc
  have := List.mem_of_mem_drop (List.mem_of_mem_take hc)
  rcases he with rfl | rfl | rfl
  · cases this
  · have : c = '\n' := by simpa using this
    subst this
    decide
  · have : c = '\r' ∨ c = '\n' := by simpa using this
    rcases this with rfl | rfl <;> decide

/-- the characters of a line at a place, stripped -/
def cell (l : Str) (s : Int × Nat) : Str := stripChars ('\r' :: '\n' :: padding) ((l.drop s.1.toNat).take s.2)

theorem cellsOf_ended {l f : Str} (h : Ended l f) (specs : List (Int × Nat)) (hs : ∀ s ∈ specs, 0 ≤ s.1) :
    cellsOf specs f = specs.map (cell l) :=
  List.map_congr_left (fun s hm => cell_ended h s.1 s.2 (hs s hm))

/-- is anything left of a line -/
def keeps (specs : List (Int × Nat)) (l : Str) : Bool := (specs.map (cell l)).any (fun c => strip c ≠ [])

theorem keeps_nil (specs : List (Int × Nat)) : keeps specs [] = false := by
  unfold keeps
  rw [List.any_eq_false]
  intro c hc
  obtain ⟨s, _, rfl⟩ := List.mem_map.1 hc
  simp [cell, stripChars, strip, rstrip, lstrip]

theorem fixedRows_lines {text : Str} {lines : List Str} (h : HasLines text lines) (specs : List (Int × Nat)) (hs : ∀ s ∈ specs, 0 ≤ s.1) :
    fixedRows specs text = (lines.filter (keeps specs)).map (fun l => specs.map (cell l)) := by
  have hf := fileLines_ended h
  have hm : (fileLines text).map (cellsOf specs) = lines.map (fun l => specs.map (cell l)) := by
    clear h
    generalize fileLines text = fs at hf
    induction hf with
    | nil => rfl
    | cons h1 _ ih => rw [List.map_cons, List.map_cons, ih, cellsOf_ended h1 specs hs]
  unfold fixedRows
  rw [hm, List.filter_map]
  rfl

theorem filter_full {p : Str → Bool} (hp : p [] = false) {lines lines' : List Str} (he : full lines' = full lines) :
    lines'.filter p = lines.filter p := by
  have aux : ∀ ls : List Str, ls.filter p = (full ls).filter p := by
    intro ls
    unfold full
    rw [List.filter_filter]
    refine List.filter_congr (fun l _ => ?_)
    by_cases hl : l = []
    · subst hl
      simp [hp]
    · simp [hl]
  rw [aux, he, ← aux]

end Verif.Ascii
