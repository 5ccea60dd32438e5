/-
C139, C140: text tables whose line ends are wrong.
-/
import Verif.Spec.RowText
import Verif.Props.AsciiTable

namespace Verif.RowText
open Verif.Py Verif.Ascii Verif.Ascii.Spec Spec

theorem seen_keeps {cols : List Col} {row : Str} (h : Seen cols row) (ho : OneLine row) :
    keeps (cols.map (fun c => (c.off, c.size))) row = true := by
  obtain ⟨c, hc, x, hx, hi⟩ := h
  have hm : x ∈ row := List.mem_of_mem_drop (List.mem_of_mem_take hx)
  exact ink_keeps _ row (c.off, c.size) (List.mem_map_of_mem (f := fun c : Col => (c.off, c.size)) hc) x hx hi
    ⟨fun e => ho.2 (e ▸ hm), fun e => ho.1 (e ▸ hm)⟩

/-- the table of a text, if all its lines but empty ones have something to be seen -/
theorem columns_lines (P : Pandas) (cols : List Col) (text : Str) (lines rows : List Str) (h : HasLines text lines)
    (hr : lines.filter (fun l => !l.isEmpty) = rows) (hne : rows ≠ []) (hs : ∀ r ∈ rows, Seen cols r)
    (hoff : ∀ c ∈ cols, 0 ≤ c.off) :
    ∃ out, columns P cols text = .ok out ∧ Table P rows cols out := by
  have hone := oneLine_lines h
  have hk : lines.filter (keeps (cols.map (fun c => (c.off, c.size)))) = rows := by
    rw [← hr]
    refine List.filter_congr (fun l hl => ?_)
    cases l with
    | nil => rw [keeps_nil]; rfl
    | cons a l =>
      have : (a :: l) ∈ rows := by rw [← hr]; exact List.mem_filter.2 ⟨hl, rfl⟩
      rw [seen_keeps (hs _ this) (hone _ hl)]; rfl
  have hrone : ∀ r ∈ rows, OneLine r := fun r hm => by
    rw [← hr] at hm; exact hone r (List.mem_filter.1 hm).1
  have hrows : fixedRows (cols.map (fun c => (c.off, c.size))) text =
      rows.map (fun l => (cols.map (fun c => (c.off, c.size))).map (cell l)) := by
    rw [fixedRows_lines h _ (by
      intro s hs
      obtain ⟨c, hc, rfl⟩ := List.mem_map.1 hs
      exact hoff c hc), hk]
  have hread : readFixed P (cols.map (fun c => (c.off, c.size))) text =
      some (cols.map (fun c => fwfColumn P (rows.map (fun l => cell l (c.off, c.size))))) := by
    have hcol := columnsOf_map rows (cols.map (fun c => (c.off, c.size)))
    unfold readFixed
    rw [hrows]
    have hK : cols.map (fun c => fwfColumn P (rows.map (fun l => cell l (c.off, c.size)))) =
        (columnsOf (cols.map (fun c => (c.off, c.size))).length
          (rows.map (fun l => (cols.map (fun c => (c.off, c.size))).map (cell l)))).map (fwfColumn P) := by
      rw [hcol, List.map_map, List.map_map]; rfl
    rw [hK]
    cases rows with
    | nil => exact absurd rfl hne
    | cons r rows => rfl
  unfold columns
  rw [hread]
  refine ⟨_, rfl, ?_⟩
  unfold Table
  rw [List.zip_map', List.forall₂_map_right_iff, List.forall₂_same]
  intro c _
  refine ⟨rfl, _, ?_, fwfColumn_shown P _⟩
  rw [List.forall₂_map_right_iff, List.forall₂_same]
  intro l hl
  exact trimmed_pads (trimmed_strip _ _) (oneLine_sub (hrone l hl) _ _)

theorem table_filter {P : Pandas} {rows : List Str} (p : Str → Bool) {cols : List Col} {out : List (Str × Cells)}
    (h : Table P rows cols out) :
    Table P rows (cols.filter (fun c => p c.name)) (out.filter (fun q => p q.1)) := by
  unfold Table at *
  induction h with
  | nil => exact .nil
  | @cons c q cs qs h _ ih =>
    by_cases hp : p c.name = true
    · rw [List.filter_cons_of_pos (p := fun c : Col => p c.name) hp,
        List.filter_cons_of_pos (p := fun q : Str × Cells => p q.1) (by rw [h.1]; exact hp)]
      exact .cons h ih
    · rw [List.filter_cons_of_neg (p := fun c : Col => p c.name) hp,
        List.filter_cons_of_neg (p := fun q : Str × Cells => p q.1) (by rw [h.1]; exact hp)]
      exact ih

theorem addNewlines_nil (n size : Nat) : HasLines (addNewlines n size []) (List.replicate n []) := by
  induction n with
  | zero => exact .nil
  | succ n ih =>
    rw [addNewlines, List.take_nil, List.drop_nil, List.replicate_succ]
    exact .line (l := []) (e := c!"\n") ⟨by simp, by simp⟩ (.inl rfl) ih

theorem addNewlines_rows (size : Nat) (post : Str) (more : Nat) (hpost : more = 0 ∨ post = []) :
    ∀ rows : List Str, (∀ r ∈ rows, OneLine r ∧ r.length = size) →
      HasLines (addNewlines (rows.length + more) size (rows.flatten ++ post)) (rows ++ List.replicate more [])
  | [], _ => by
    rcases hpost with rfl | rfl
    · exact .nil
    · simpa using addNewlines_nil more size
  | r :: rows, h => by
    obtain ⟨h1, h2⟩ := h r (List.mem_cons_self ..)
    have hl : (r :: rows).length + more = (rows.length + more) + 1 := by simp only [List.length_cons]; omega
    rw [hl, addNewlines, List.flatten_cons, List.append_assoc r, List.take_left' h2, List.drop_left' h2]
    exact .line h1 (.inl rfl) (addNewlines_rows size post more hpost rows (fun x hx => h x (List.mem_cons_of_mem _ hx)))

/-- **C139.** A Halley or ICE table without line ends: from its start in the file there are rows of ROW_BYTES
characters. The table has the columns of the label but placeholders, in order, and each shows its characters in
every row. ROWS may be greater than the number of rows if they end the file. -/
theorem C139_rows (P : Pandas) (pre post : Str) (rows : List Str) (size more : Nat) (cols : List Col)
    (hr : ∀ r ∈ rows, OneLine r ∧ r.length = size ∧ Seen cols r) (hne : rows ≠ []) (hoff : ∀ c ∈ cols, 0 ≤ c.off)
    (hpost : more = 0 ∨ post = []) :
    ∃ out, halley P (pre ++ rows.flatten ++ post) pre.length (rows.length + more) size cols = .ok out ∧
      Table P rows (cols.filter (fun c => !contains c.name c!"PLACEHOLDER")) out := by
  have hl := addNewlines_rows size post more hpost rows (fun r h => ⟨(hr r h).1, (hr r h).2.1⟩)
  have hfull : (rows ++ List.replicate more []).filter (fun l => !l.isEmpty) = rows := by
    rw [List.filter_append, List.filter_eq_self.2, List.filter_eq_nil_iff.2, List.append_nil]
    · intro l hl
      rw [List.eq_of_mem_replicate hl]
      simp
    · intro r h
      obtain ⟨c, _, x, hx, _⟩ := (hr r h).2.2
      cases r with
      | nil => simp [chars] at hx
      | cons => rfl
  obtain ⟨out, h1, h2⟩ := columns_lines P cols _ _ rows hl hfull hne (fun r h => (hr r h).2.2) hoff
  refine ⟨_, ?_, table_filter (fun n => !contains n c!"PLACEHOLDER") h2⟩
  unfold halley
  rw [List.append_assoc, List.drop_left' rfl, h1]

theorem endsWith_lf (s : Str) : endsWith (s ++ c!"\n") c!"\n" = true := by
  unfold endsWith
  rw [List.isSuffixOf_iff_suffix]
  exact ⟨s, rfl⟩

theorem not_endsWith_lf {s : Str} (h : s.getLast? ≠ some '\n') : endsWith s c!"\n" = false := by
  cases he : endsWith s c!"\n" with
  | false => rfl
  | true =>
    unfold endsWith at he
    rw [List.isSuffixOf_iff_suffix] at he
    obtain ⟨t, rfl⟩ := he
    simp at h

theorem filter_noLf {s : Str} (h : '\n' ∉ s) : s.filter (fun c => c ≠ '\n') = s := by
  rw [List.filter_eq_self]
  intro c hc
  have : c ≠ '\n' := fun e => h (by rw [← e]; exact hc)
  simpa using this

theorem takeNewlines_nil (n size : Nat) : takeNewlines n size [] = [] := by
  induction n with
  | zero => rfl
  | succ n ih =>
    rw [takeNewlines, List.take_nil, List.drop_nil, List.drop_nil, List.take_nil, ih]
    rfl

/-- a row of the file is read as a line -/
theorem takeNewlines_row {n : Nat} {l w : Str} (h : Written n l w) (k : Nat) (rest : Str) :
    ∃ e, (e = c!"\n" ∨ e = c!"\r\n") ∧ OneLine l ∧
      takeNewlines (k + 1) n (w ++ rest) = l ++ e ++ takeNewlines k n rest := by
  cases h with
  | straight h1 he hlen =>
    rename_i e
    refine ⟨e, he, h1, ?_⟩
    rw [takeNewlines, List.take_left' hlen, List.drop_left' hlen, if_pos]
    rcases he with rfl | rfl
    · exact endsWith_lf l
    · have := endsWith_lf (l ++ c!"\r")
      rwa [List.append_assoc] at this
  | broken h1 he hlen hb =>
    rename_i a b e
    refine ⟨e, he, h1, ?_⟩
    obtain ⟨e', he', hcr⟩ : ∃ e' : Str, e = e' ++ c!"\n" ∧ '\n' ∉ e' := by
      rcases he with rfl | rfl
      · exact ⟨[], rfl, by simp⟩
      · exact ⟨c!"\r", rfl, by simp⟩
    subst he'
    have hlen' : (a ++ c!"\n" ++ (b ++ e')).length = n := by
      simp only [List.length_append, List.length_cons, List.length_nil] at hlen ⊢
      omega
    have hw : a ++ c!"\n" ++ b ++ (e' ++ c!"\n") ++ rest = (a ++ c!"\n" ++ (b ++ e')) ++ (c!"\n" ++ rest) := by
      simp only [List.append_assoc]
    have hno : '\n' ∉ b ++ e' := by
      intro h
      rcases List.mem_append.1 h with h | h
      · exact h1.1 (List.mem_append_right _ h)
      · exact hcr h
    have hne : b ++ e' ≠ [] := by
      intro h
      apply hb
      rw [← List.append_assoc, h]; rfl
    have hlast : (a ++ c!"\n" ++ (b ++ e')).getLast? ≠ some '\n' := by
      rw [List.getLast?_append_of_ne_nil _ hne]
      intro h
      exact hno (List.mem_of_getLast? h)
    rw [hw, takeNewlines, List.take_left' hlen', List.drop_left' hlen', not_endsWith_lf hlast]
    have hf : (a ++ c!"\n" ++ (b ++ e')).filter (fun c => c ≠ '\n') = a ++ (b ++ e') := by
      rw [List.filter_append, List.filter_append, filter_noLf hno,
        filter_noLf (fun h => h1.1 (List.mem_append_left _ h))]
      simp
    rw [if_neg (by simp), hf]
    simp only [List.append_assoc]
    rfl

theorem takeNewlines_rows (n : Nat) (post : Str) (more : Nat) (hpost : more = 0 ∨ post = []) {rows ws : List Str}
    (h : List.Forall₂ (Written n) rows ws) : HasLines (takeNewlines (rows.length + more) n (ws.flatten ++ post)) rows := by
  induction h with
  | nil =>
    rcases hpost with rfl | rfl
    · exact .nil
    · rw [List.flatten_nil, List.append_nil, takeNewlines_nil]; exact .nil
  | @cons l w rows ws h _ ih =>
    have hl : (l :: rows).length + more = (rows.length + more) + 1 := by simp only [List.length_cons]; omega
    obtain ⟨e, he, h1, h2⟩ := takeNewlines_row h (rows.length + more) (ws.flatten ++ post)
    rw [hl, List.flatten_cons, List.append_assoc, h2]
    exact .line h1 he ih

/-- **C140.** A Magellan occultation profile: its rows have ROW_BYTES characters, some with a line feed within
them. The table has the columns of the label but the placeholder, in order, and each shows its characters in every
row, as if there were no line feed. FILE_RECORDS may be greater than the number of rows if they end the file. -/
theorem C140_rows (P : Pandas) (post : Str) (rows ws : List Str) (size more : Nat) (cols : List Col)
    (hw : List.Forall₂ (Written size) rows ws) (hs : ∀ r ∈ rows, Seen cols r) (hne : rows ≠ [])
    (hoff : ∀ c ∈ cols, 0 ≤ c.off) (hpost : more = 0 ∨ post = []) (hp : ∃ c ∈ cols, c.name = c!"PLACEHOLDER_0") :
    ∃ out, occultation P (ws.flatten ++ post) (rows.length + more) size cols = .ok out ∧
      Table P rows (cols.filter (fun c => c.name ≠ c!"PLACEHOLDER_0")) out := by
  have hl := takeNewlines_rows size post more hpost hw
  have hfull : rows.filter (fun l => !l.isEmpty) = rows := by
    rw [List.filter_eq_self]
    intro r h
    obtain ⟨c, _, x, hx, _⟩ := hs r h
    cases r with
    | nil => simp [chars] at hx
    | cons => rfl
  obtain ⟨out, h1, h2⟩ := columns_lines P cols _ _ rows hl hfull hne hs hoff
  have hnames : ∀ {cols : List Col} {out : List (Str × Cells)}, Table P rows cols out →
      out.map Prod.fst = cols.map (·.name) := by
    intro cols out h
    unfold Table at h
    induction h with
    | nil => rfl
    | cons h _ ih => rw [List.map_cons, List.map_cons, h.1, ih]
  refine ⟨_, ?_, table_filter (fun n => decide (n ≠ c!"PLACEHOLDER_0")) h2⟩
  unfold occultation
  rw [h1]
  dsimp only
  rw [hnames h2, if_pos]
  obtain ⟨c, hc, hn⟩ := hp
  rw [List.contains_iff_mem]
  exact List.mem_map.2 ⟨c, hc, hn⟩

/-! ### cases -/

private theorem one1 : OneLine c!"12,34" := ⟨by decide, by decide⟩
private theorem one2 : OneLine c!"56,78" := ⟨by decide, by decide⟩
private theorem ink1 : Ink '1' := ⟨by decide, by decide⟩
private theorem ink5 : Ink '5' := ⟨by decide, by decide⟩

private def cols : List Col := [⟨c!"A", 0, 2⟩, ⟨c!"PLACEHOLDER_0", 2, 1⟩, ⟨c!"B", 3, 2⟩]

example (P : Pandas) : ∃ out, halley P c!"HEAD12,3456,78" 4 2 5 cols = .ok out ∧
    Table P [c!"12,34", c!"56,78"] [⟨c!"A", 0, 2⟩, ⟨c!"B", 3, 2⟩] out := by
  have := C139_rows P c!"HEAD" [] [c!"12,34", c!"56,78"] 5 0 cols (by
    intro r h
    simp only [List.mem_cons, List.not_mem_nil, or_false] at h
    rcases h with rfl | rfl
    · exact ⟨one1, rfl, _, List.mem_cons_self .., '1', by decide, ink1⟩
    · exact ⟨one2, rfl, _, List.mem_cons_self .., '5', by decide, ink5⟩) (by simp) (by decide) (.inl rfl)
  exact this

example (P : Pandas) : ∃ out, occultation P c!"12,34\n56\n,78\n" 2 6 cols = .ok out ∧
    Table P [c!"12,34", c!"56,78"] [⟨c!"A", 0, 2⟩, ⟨c!"B", 3, 2⟩] out := by
  have := C140_rows P [] [c!"12,34", c!"56,78"] [c!"12,34\n", c!"56\n,78\n"] 6 0 cols
    (.cons (.straight (l := c!"12,34") (e := c!"\n") one1 (.inl rfl) rfl)
      (.cons (.broken (a := c!"56") (b := c!",78") (e := c!"\n") one2 (.inl rfl) rfl (by decide)) .nil))
    (by
      intro r h
      simp only [List.mem_cons, List.not_mem_nil, or_false] at h
      rcases h with rfl | rfl
      · exact ⟨_, List.mem_cons_self .., '1', by decide, ink1⟩
      · exact ⟨_, List.mem_cons_self .., '5', by decide, ink5⟩)
    (by simp) (by decide) (.inl rfl) ⟨⟨c!"PLACEHOLDER_0", 2, 1⟩, by simp [cols], rfl⟩
  exact this

end Verif.RowText
