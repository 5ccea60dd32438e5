/-
C148, C149: tables with lines before them.
-/
import Verif.Spec.HeadedText
import Verif.Props.NamedText

namespace Verif.HeadedText
open Verif.Py Verif.Ascii Verif.Ascii.Spec Verif.LooseText Verif.LooseText.Spec Verif.NamedText Verif.NamedText.Spec Spec

/-- lines of equal length before a text -/
theorem lines_before {n : Nat} {text : Str} {lines : List Str} (h : HasLines text lines) :
    ∀ pieces : List Str, (∀ p ∈ pieces, LineOf n p) →
      ∃ ls, ls.length = pieces.length ∧ HasLines (pieces.flatten ++ text) (ls ++ lines)
  | [], _ => ⟨[], rfl, h⟩
  | p :: pieces, hp => by
    obtain ⟨ls, h1, h2⟩ := lines_before h pieces (fun q hq => hp q (List.mem_cons_of_mem _ hq))
    obtain ⟨_, l, e, rfl, h3, h4⟩ := hp p List.mem_cons_self
    refine ⟨l :: ls, by rw [List.length_cons, List.length_cons, h1], ?_⟩
    rw [List.flatten_cons, List.append_assoc]
    exact .line h3 h4 h2

theorem length_flatten {n : Nat} (pieces : List Str) (h : ∀ p ∈ pieces, LineOf n p) :
    pieces.flatten.length = pieces.length * n := by
  induction pieces with
  | nil => simp
  | cons p pieces ih =>
    rw [List.flatten_cons, List.length_append, (h p List.mem_cons_self).1,
      ih (fun q hq => h q (List.mem_cons_of_mem _ hq)), List.length_cons, Nat.add_mul]
    omega

/-- **C148.** A REMS product has several tables in one file, whose lines have 399 bytes. A table of the label that
starts at some byte of the file and has ROWS lines shows these lines only: column `k` has the `k`th name that is no
placeholder, and the field at place `k` of every line. -/
theorem C148_rows (infer : List Str → Inferred) (missing : Str → Bool) (pieces : List Str) (text : Str)
    (hp : ∀ p ∈ pieces, LineOf 399 p) (own post : List Str) (h : HasLines text (own ++ post))
    (rows more : List (List Str)) (hr : List.Forall₂ (Fields ',') own rows) (hb : ∀ l ∈ own, ¬ Blank ',' l)
    (hm : Delimited ',' post more) (names ks : List Str) (hk : Kept (fun n => ¬ c!"PLACEHOLDER" <:+: n) names ks)
    (hf : Fits ks.length rows) :
    ∃ out, rems infer missing (pieces.flatten ++ text) pieces.flatten.length own.length names = .ok out ∧
      Table infer missing rows 0 ks out := by
  obtain ⟨ls, h1, h2⟩ := lines_before h pieces hp
  have hd : Delimited ',' own rows := by
    unfold Delimited
    rw [List.filter_eq_self.2 (fun l hl => by simpa using hb l hl)]
    exact hr
  rw [← List.append_assoc] at h2
  have hrows := afm_rows h2 hd hm
  unfold rems
  rw [length_flatten pieces hp, Nat.mul_div_cancel _ (by decide), ← h1, hr.length_eq, hrows,
    kept_filter contains_not hk]
  exact table_rows infer missing ks rows hf

theorem under_rows (infer : List Str → Inferred) (missing : Str → Bool) (names : List Str) (rows : List (List Str))
    (hlen : ∀ r ∈ rows, r.length ≤ names.length) :
    ∃ t, under infer missing names.length names rows = .ok t ∧ t.labels = rows.map (fun _ => []) ∧
      Table infer missing rows 0 names t.columns := by
  have he : (rows.headD []).length - names.length = 0 := by
    cases rows with
    | nil => simp
    | cons r rows =>
      have := hlen r List.mem_cons_self
      rw [List.headD_cons]
      omega
  unfold under
  simp only [he]
  rw [if_neg (by
    rw [Bool.not_eq_true, List.any_eq_false]
    intro r hm
    have := hlen r hm
    simpa using this), if_neg (by simp)]
  refine ⟨_, rfl, List.map_congr_left (fun r _ => List.take_zero), ?_, ?_⟩
  · refine List.ext_getElem (by simp) (fun i h1 h2 => by simp)
  · intro k q hq
    obtain ⟨hk, rfl⟩ := List.getElem?_eq_some_iff.1 hq
    rw [List.getElem_zipWith]
    simp only [List.getElem_range]
    exact column_shown infer missing _

/-- **C149.** Mini-RF housekeeping tables: three columns, however many fields the first line has (up to three). -/
theorem C149_miniRf (infer : List Str → Inferred) (missing : Str → Bool) (content : Str) (lines : List Str)
    (h : HasLines content lines) (rows : List (List Str)) (hr : Delimited ',' lines rows)
    (hw : ∀ r ∈ rows, r.length ≤ 3) (names : List Str) (hn : names.length = 3) :
    ∃ t, miniRf infer missing content names = .ok t ∧ t.labels = rows.map (fun _ => []) ∧
      Table infer missing rows 0 names t.columns := by
  unfold miniRf
  rw [tokenize_text MissionCsv.comma_plain h hr, ← hn]
  exact under_rows infer missing names rows (by rw [hn]; exact hw)

theorem headed_rows (infer : List Str → Inferred) (missing : Str → Bool) {sep : Char} (hs : Plain sep) {content : Str}
    {lines : List Str} (h : HasLines content lines) {before rows : List (List Str)} {header : List Str}
    (hr : Delimited sep lines (before ++ header :: rows)) (names : List Str) (hn : names.length = header.length)
    (hw : ∀ r ∈ rows, r.length ≤ names.length) :
    ∃ t, headed infer missing sep before.length content names = .ok t ∧ t.labels = rows.map (fun _ => []) ∧
      Table infer missing rows 0 names t.columns := by
  unfold headed
  rw [tokenize_text hs h hr]
  simp only
  rw [List.drop_left' rfl]
  simp only
  rw [← hn]
  exact under_rows infer missing names rows hw

/-- **C149**, tables of places of the Curiosity rover: the first line has as many fields as the label has names, and its
own names are not used. -/
theorem C149_places (infer : List Str → Inferred) (missing : Str → Bool) (content : Str) (lines : List Str)
    (h : HasLines content lines) (header : List Str) (rows : List (List Str)) (hr : Delimited ',' lines (header :: rows))
    (names : List Str) (hn : names.length = header.length) (hw : ∀ r ∈ rows, r.length ≤ names.length) :
    ∃ t, places infer missing content names = .ok t ∧ t.labels = rows.map (fun _ => []) ∧
      Table infer missing rows 0 names t.columns :=
  headed_rows (before := []) infer missing MissionCsv.comma_plain h hr names hn hw

/-- **C149**, tables of the Galileo plasma wave experiment: semicolons, and one line more before the table, with
anything in it. -/
theorem C149_pws (infer : List Str → Inferred) (missing : Str → Bool) (content : Str) (lines : List Str)
    (h : HasLines content lines) (title header : List Str) (rows : List (List Str))
    (hr : Delimited ';' lines (title :: header :: rows)) (names : List Str) (hn : names.length = header.length)
    (hw : ∀ r ∈ rows, r.length ≤ names.length) :
    ∃ t, pws infer missing content names = .ok t ∧ t.labels = rows.map (fun _ => []) ∧
      Table infer missing rows 0 names t.columns :=
  headed_rows (before := [title]) infer missing ⟨by decide, by decide, by decide⟩ h hr names hn hw

/-- **C149**, errors: another number of names than the header has is an error, not a shift of columns. -/
theorem C149_mismatch (infer : List Str → Inferred) (missing : Str → Bool) (content : Str) (lines : List Str)
    (h : HasLines content lines) (header : List Str) (rows : List (List Str)) (hr : Delimited ',' lines (header :: rows))
    (names : List Str) (hn : names.length ≠ header.length) (hw : ∀ r ∈ rows, r.length ≤ header.length) :
    places infer missing content names = .error .mismatch := by
  unfold places headed
  rw [tokenize_text MissionCsv.comma_plain h hr]
  simp only [List.drop_zero]
  unfold under
  simp only
  rw [if_neg (by
    rw [Bool.not_eq_true, List.any_eq_false]
    intro r hm
    have := hw r hm
    simp only [decide_eq_true_eq]
    omega), if_pos (fun e => hn e.symm)]

/-! ### concrete cases -/

example : LineOf 399 (List.replicate 397 'x' ++ c!"\r\n") :=
  ⟨by rw [List.length_append, List.length_replicate]; rfl, List.replicate 397 'x', c!"\r\n", rfl,
    ⟨fun h => absurd (List.eq_of_mem_replicate h) (by decide), fun h => absurd (List.eq_of_mem_replicate h) (by decide)⟩,
    .inr rfl⟩

/-- the first line has one field -/
example : miniRf asText (fun c => c.isEmpty) c!"START\nT,1,K\n" [c!"A", c!"B", c!"C"] =
    .ok ⟨[[], []], [(c!"A", .texts [some c!"START", some c!"T"]), (c!"B", .texts [none, some c!"1"]),
      (c!"C", .texts [none, some c!"K"])]⟩ := rfl

example : pws asText (fun _ => false) c!"Plasma wave\nx;y\n1;2\n3;4\n" [c!"A", c!"B"] =
    .ok ⟨[[], []], [(c!"A", .texts [some c!"1", some c!"3"]), (c!"B", .texts [some c!"2", some c!"4"])]⟩ := rfl

example : places asText (fun _ => false) c!"x,y\n1,2\n" [c!"A", c!"B", c!"C"] = .error .mismatch := rfl

/-- row labels: a line longer than the header -/
example : places asText (fun _ => false) c!"x,y\n1,2,3\n" [c!"A", c!"B"] =
    .ok ⟨[[c!"1"]], [(c!"A", .texts [some c!"2"]), (c!"B", .texts [some c!"3"])]⟩ := rfl

end Verif.HeadedText
