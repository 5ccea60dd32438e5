/-
C143, C144: tables with comma-separated values that special readers read.
-/
import Verif.Spec.MissionCsv
import Verif.Props.LooseText

namespace Verif.MissionCsv
open Verif.Py Verif.Ascii Verif.Ascii.Spec Verif.LooseText Verif.LooseText.Spec Spec

theorem comma_plain : Plain ',' := ⟨by decide, by decide, by decide⟩

/-- **C143.** An ASPERA IMA table has a column for each name of the label, in order; it shows the field at its place of
every line. Fields beyond the last name are left out, however many a line has of them; shorter lines have missing
values at their end. -/
theorem C143_columns (infer : List Str → Inferred) (missing : Str → Bool) (content : Str) (lines : List Str)
    (h : HasLines content lines) (rows : List (List Str)) (hr : Delimited ',' lines rows) (names first : List Str)
    (hf : rows.head? = some first) (hn : names.length ≤ first.length) :
    ∃ out, aspera infer missing content names = .ok out ∧ Table infer missing rows 0 names out := by
  unfold aspera
  rw [tokenize_text comma_plain h hr]
  cases rows with
  | nil => cases hf
  | cons r rest =>
    cases hf
    simp only
    rw [if_neg (by omega)]
    refine ⟨_, rfl, ?_, ?_⟩
    · rw [List.map_fst_zip]
      simp [columnsOf]
    · intro k q hq
      obtain ⟨hk, rfl⟩ := List.getElem?_eq_some_iff.1 hq
      rw [List.getElem_zip]
      simp only [columnsOf, List.getElem_map, List.getElem_range, Nat.zero_add]
      exact column_shown infer missing _

/-- **C143**, error: a first line with fewer fields than there are names -/
theorem C143_short (infer : List Str → Inferred) (missing : Str → Bool) (content : Str) (lines : List Str)
    (h : HasLines content lines) (rows : List (List Str)) (hr : Delimited ',' lines rows) (names first : List Str)
    (hf : rows.head? = some first) (hn : first.length < names.length) :
    aspera infer missing content names = .error .valueError := by
  unfold aspera
  rw [tokenize_text comma_plain h hr]
  cases rows with
  | nil => cases hf
  | cons r rest =>
    cases hf
    exact if_pos hn

theorem frame_rows (infer : List Str → Inferred) (missing : Str → Bool) (names : List Str) (hn : names.Nodup)
    (rows : List (List Str)) (hlen : ∀ r ∈ rows, r.length ≤ names.length) :
    ∃ t, frame infer missing names rows = .ok t ∧ t.labels = rows.map (fun _ => []) ∧
      Table infer missing rows 0 names t.columns := by
  have he : (rows.headD []).length - names.length = 0 := by
    cases rows with
    | nil => simp
    | cons r rows =>
      have := hlen r List.mem_cons_self
      rw [List.headD_cons]
      omega
  unfold frame
  rw [if_neg (not_not.2 hn)]
  simp only [he]
  rw [if_neg (by
    rw [Bool.not_eq_true, List.any_eq_false]
    intro r hm
    have := hlen r hm
    simpa using this)]
  refine ⟨_, rfl, List.map_congr_left (fun r _ => List.take_zero), ?_, ?_⟩
  · refine List.ext_getElem (by simp) (fun i h1 h2 => by simp)
  · intro k q hq
    obtain ⟨hk, rfl⟩ := List.getElem?_eq_some_iff.1 hq
    rw [List.getElem_zipWith]
    simp only [List.getElem_range]
    exact column_shown infer missing _

/-- **C144.** A Cassini spreadsheet whose columns have the names of the label: what is in the lines before the table
does not matter, and column `k` shows the field at place `k` of every line of the table. -/
theorem C144_names (infer : List Str → Inferred) (missing : Str → Bool) (differ : List Str → List Str)
    (filename dataSet content : Str) (hu : ¬ c!"UNCALIB" <:+: dataSet) (n : Nat) (hb : LinesBefore filename dataSet n)
    (before lines : List Str) (h : HasLines content (before ++ lines)) (hlen : before.length = n)
    (rows : List (List Str)) (hr : Delimited ',' lines rows) (names : List Str) (hn : names.Nodup)
    (hw : ∀ r ∈ rows, r.length ≤ names.length) :
    ∃ t, spreadsheet infer missing differ filename dataSet content names = .ok t ∧ t.labels = rows.map (fun _ => []) ∧
      Table infer missing rows 0 names t.columns := by
  have hs : spreadsheet infer missing differ filename dataSet content names = withNames infer missing names n content := by
    unfold spreadsheet
    rw [if_neg (fun hc => hu ((Datatypes.contains_iff _ _).1 hc))]
    cases hb with
    | full h1 h2 => rw [if_pos ((Datatypes.contains_iff _ _).2 h1), if_neg h2]
    | radar h1 h2 => rw [if_neg (fun hc => h1 ((Datatypes.contains_iff _ _).1 hc)), if_pos h2]
    | other h1 h2 => rw [if_neg (fun hc => h1 ((Datatypes.contains_iff _ _).1 hc)), if_neg h2]
  have hl := hasLines_drop h n
  rw [List.drop_left' hlen] at hl
  rw [hs]
  unfold withNames
  rw [tokenize_text comma_plain hl hr]
  exact frame_rows infer missing names hn rows hw

theorem withHeader_lines (infer : List Str → Inferred) (missing : Str → Bool) (differ : List Str → List Str)
    {text : Str} {header : Str} {lines : List Str} (h : HasLines text (header :: lines)) {names : List Str}
    (hh : Fields ',' header names) (hb : ¬ Blank ',' header) (hn : (differ names).Nodup) {rows : List (List Str)}
    (hr : Delimited ',' lines rows) (hw : ∀ r ∈ rows, r.length ≤ (differ names).length) :
    ∃ t, withHeader infer missing differ text = .ok t ∧ t.labels = rows.map (fun _ => []) ∧
      Table infer missing rows 0 (differ names) t.columns := by
  have hd : Delimited ',' (header :: lines) (names :: rows) := by
    unfold Delimited at *
    rw [filter_cons_full hb]
    exact .cons hh hr
  unfold withHeader
  rw [tokenize_text comma_plain h hd]
  exact frame_rows infer missing _ hn rows hw

theorem hasLines_take_one {text : Str} {l : Str} {lines : List Str} (h : HasLines text (l :: lines)) :
    ∃ f, (Locate.fileLines text).take 1 = [f] ∧ Ended l f := by
  have hf := fileLines_ended h
  obtain ⟨f, fs, h1, _, h2⟩ := List.forall₂_cons_left_iff.1 hf
  exact ⟨f, by rw [h2]; rfl, h1⟩

theorem ended_first {text : Str} {l : Str} {lines : List Str} (h : HasLines text (l :: lines)) (hl : lines ≠ []) :
    ∃ e, (e = c!"\n" ∨ e = c!"\r\n") ∧ OneLine l ∧ (Locate.fileLines text).take 1 = [l ++ e] := by
  generalize hL : l :: lines = L at h
  cases h with
  | nil => cases hL
  | last h1 h2 =>
    cases hL
    exact absurd rfl hl
  | @line l' e text ls h1 he h2 =>
    cases hL
    refine ⟨e, he, h1, ?_⟩
    rcases he with rfl | rfl
    · rw [fileLines_lf h1.1]; rfl
    · have : l ++ c!"\r\n" ++ text = (l ++ c!"\r") ++ c!"\n" ++ text := by simp
      rw [this, fileLines_lf (by
        rw [List.mem_append, not_or]
        exact ⟨h1.1, by decide⟩)]
      simp

/-- **C144**, spreadsheets with their own names of columns: the columns have the names in the first line (which pandas
makes differ, if they do not); between it and the table there may be lines that do not matter. -/
theorem C144_own_names (infer : List Str → Inferred) (missing : Str → Bool) (differ : List Str → List Str)
    (filename dataSet content : Str) (n : Nat) (ho : OwnNames filename dataSet n) (header : Str)
    (between lines : List Str) (h : HasLines content (header :: between ++ lines)) (hlen : between.length = n)
    (names : List Str) (hh : Fields ',' header names) (hb : ¬ Blank ',' header) (hn : (differ names).Nodup)
    (rows : List (List Str)) (hr : Delimited ',' lines rows) (hw : ∀ r ∈ rows, r.length ≤ (differ names).length)
    (labelNames : List Str) :
    ∃ t, spreadsheet infer missing differ filename dataSet content labelNames = .ok t ∧
      t.labels = rows.map (fun _ => []) ∧ Table infer missing rows 0 (differ names) t.columns := by
  cases ho with
  | raw h1 =>
    cases between with
    | cons b bs => cases hlen
    | nil =>
      unfold spreadsheet
      rw [if_pos ((Datatypes.contains_iff _ _).2 h1)]
      exact withHeader_lines infer missing differ h hh hb hn hr hw
  | chems h1 h2 =>
    subst h2
    unfold spreadsheet
    rw [if_neg (by decide), if_pos ((Datatypes.contains_iff _ _).2 h1), if_pos rfl]
    have hne : between ++ lines ≠ [] := by
      cases between with
      | nil => cases hlen
      | cons b bs => simp
    obtain ⟨e, he, h3, h4⟩ := ended_first h hne
    have hl := hasLines_drop h 4
    have hd : (header :: between ++ lines).drop 4 = lines := List.drop_left' (by rw [List.length_cons, hlen])
    rw [hd] at hl
    rw [h4, List.flatten_append, List.flatten_cons, List.flatten_nil, List.append_nil]
    exact withHeader_lines infer missing differ (.line h3 he hl) hh hb hn hr hw

/-! ### concrete cases -/

/-- a line of three fields, then one with a comma too many -/
example : aspera asText (fun c => c.isEmpty) c!"S,1,2\nM,3,,\n" [c!"KIND", c!"VALUES_0", c!"VALUES_1"] =
    .ok [(c!"KIND", .texts [some c!"S", some c!"M"]), (c!"VALUES_0", .texts [some c!"1", some c!"3"]),
      (c!"VALUES_1", .texts [some c!"2", none])] := rfl

example : HasLines c!"S,1,2\nM,3,,\n" [c!"S,1,2", c!"M,3,,"] :=
  .line (l := c!"S,1,2") (e := c!"\n") (text := c!"M,3,,\n") ⟨by decide, by decide⟩ (.inl rfl)
    (.line (l := c!"M,3,,") (e := c!"\n") (text := []) ⟨by decide, by decide⟩ (.inl rfl) .nil)

/-- four lines, then the table -/
example : spreadsheet asText (fun _ => false) id c!"LEMMS_FULL.CSV" c!"CO-S-MIMI-4-LEMMS-CALIB-V1.0"
    c!"a\nb,c,d\ne\nf\n1,2\n3,4\n" [c!"T", c!"V"] =
    .ok ⟨[[], []], [(c!"T", .texts [some c!"1", some c!"3"]), (c!"V", .texts [some c!"2", some c!"4"])]⟩ := rfl

/-- names, three lines, then the table -/
example : spreadsheet asText (fun _ => false) id c!"CHEMS_FULL.CSV" c!"CO-S-MIMI-4-CHEMS-CALIB-V1.0"
    c!"A,B\nb,c,d\ne\nf\n1,2\n3,4\n" [c!"T", c!"V"] =
    .ok ⟨[[], []], [(c!"A", .texts [some c!"1", some c!"3"]), (c!"B", .texts [some c!"2", some c!"4"])]⟩ := rfl

example : LinesBefore c!"LEMMS_FULL.CSV" c!"CO-S-MIMI-4-LEMMS-CALIB-V1.0" 4 :=
  .full ⟨c!"LEMMS_", c!".CSV", rfl⟩ (by decide)

example : OwnNames c!"CHEMS_FULL.CSV" c!"CO-S-MIMI-4-CHEMS-CALIB-V1.0" 3 := .chems ⟨c!"CHEMS_", c!".CSV", rfl⟩ rfl

end Verif.MissionCsv
