/-
C141, C142: text tables read without the positions of the label.
-/
import Verif.Spec.LooseText
import Verif.Props.AsciiTable
import Verif.Props.Pds4Read
import Verif.Props.Datatypes

namespace Verif.LooseText
open Verif.Py Verif.Ascii Verif.Ascii.Spec Spec

theorem column_shown (infer : List Str → Inferred) (missing : Str → Bool) (cells : List Str) :
    Shown infer missing Eq cells (column infer missing cells) := by
  unfold column
  cases h : infer cells with
  | values c => exact .values h
  | mixed vs => exact .mixed h
  | text =>
    refine .texts h ?_
    rw [List.forall₂_map_right_iff, List.forall₂_same]
    intro c _
    cases hm : missing c
    · exact .inr ⟨rfl, c, rfl, by simp⟩
    · exact .inl ⟨rfl, by simp⟩

/-! ### Chang'e 4 -/

theorem numbered_names {base : Str} {n : Nat} {a : List Str} (h : Numbered base n a) :
    a = (List.range n).map (fun i => base ++ c!"_" ++ natStr (i + 1)) := by
  refine List.ext_getElem? (fun i => ?_)
  by_cases hi : i < n
  · rw [h.2 i hi]
    simp [hi]
  · rw [List.getElem?_eq_none (by rw [h.1]; omega), List.getElem?_eq_none (by simp; omega)]

theorem groupNames_eq {gs : List Group} {names : List Str} (h : GroupNames gs names) : gs.flatMap groupNames = names := by
  induction h with
  | nil => rfl
  | @cons g gs base n a b h1 h2 h3 _ ih =>
    rw [List.flatMap_cons, ih, numbered_names h3]
    congr 1
    unfold groupNames
    have e1 : g.name.getD c!"Group" = base := by
      rcases h1 with h | ⟨h, rfl⟩ <;> rw [h] <;> rfl
    have e2 : (g.repetitions.getD 0).toNat = n := by
      rcases h2 with h | ⟨h, rfl⟩ <;> rw [h]
      · exact Int.toNat_natCast n
      · rfl
    rw [e1, e2]

/-- a line end is white space -/
theorem words_ended {l f : Str} {ws : List Str} (h : Ended l f) (hw : Xml.Spec.HasWords l ws) : Xml.words f = ws := by
  obtain ⟨hone, e, rfl, he⟩ := h
  clear hone
  have hsp : ∀ c ∈ e, isSpace c = true := by
    rcases he with rfl | rfl | rfl
    · simp
    · intro c hc
      rw [List.mem_singleton.1 hc]; decide
    · intro c hc
      rcases List.mem_cons.1 hc with rfl | hc
      · decide
      · rw [List.mem_singleton.1 hc]; decide
  refine (Pds4Read.words_of (t := l ++ e) (ws := ws) ?_).symm
  induction hw with
  | nil sp hs =>
    refine .nil _ (fun c hc => ?_)
    rcases List.mem_append.1 hc with h | h
    · exact hs c h
    · exact hsp c h
  | last sp w sp' hs hw hn hs' =>
    rw [List.append_assoc]
    refine .last sp w (sp' ++ e) hs hw hn (fun c hc => ?_)
    rcases List.mem_append.1 hc with h | h
    · exact hs' c h
    · exact hsp c h
  | cons sp w t c ws hs hw hn hc hne hr ih =>
    rw [List.append_assoc, List.cons_append]
    exact .cons sp w (t ++ e) c ws hs hw hn hc hne ih

theorem word_rows {text : Str} {lines : List Str} {rows : List (List Str)} (h : HasLines text lines)
    (hr : WordRows lines rows) : ((Locate.fileLines text).map Xml.words).filter (fun r => !r.isEmpty) = rows := by
  obtain ⟨all, ha, rfl⟩ := hr
  have hm : (Locate.fileLines text).map Xml.words = all := by
    have hf := fileLines_ended h
    revert hf
    generalize Locate.fileLines text = fs
    clear h
    induction ha generalizing fs with
    | nil => intro hf; cases hf; rfl
    | @cons l ws ls all hw _ ih =>
      intro hf
      obtain ⟨f, fs', h1, h2, rfl⟩ := List.forall₂_cons_left_iff.1 hf
      rw [List.map_cons, words_ended h1 hw, ih fs' h2]
  rw [hm]
  exact List.filter_congr (fun r _ => by cases r <;> simp)

theorem readWords_rows (infer : List Str → Inferred) (missing : Str → Bool) (names : List Str) (hn : names.Nodup)
    {text : Str} {lines : List Str} {rows : List (List Str)} (h : HasLines text lines) (hr : WordRows lines rows)
    (extra : Nat) (he : (rows.headD []).length - names.length = extra)
    (hlen : ∀ r ∈ rows, r.length ≤ names.length + extra) :
    ∃ t, readWords infer missing names text = .ok t ∧ t.labels = rows.map (List.take extra) ∧
      Table infer missing rows extra names t.columns := by
  unfold readWords
  rw [if_neg (not_not.2 hn)]
  simp only [word_rows h hr, he]
  rw [if_neg (by
    rw [Bool.not_eq_true, List.any_eq_false]
    intro r hm
    have := hlen r hm
    simpa using this)]
  refine ⟨_, rfl, rfl, ?_, ?_⟩
  · refine List.ext_getElem (by simp) (fun i h1 h2 => by simp)
  · intro k q hq
    obtain ⟨hk, rfl⟩ := List.getElem?_eq_some_iff.1 hq
    rw [List.getElem_zipWith]
    simp only [List.getElem_range]
    exact column_shown infer missing _

/-- **C141.** A Chang'e 4 table: the columns have the names of the fields, then those of the groups, and column `k`
shows the word at place `k` of every line that has words (nothing if the line is shorter), if no line has more words
than there are columns. -/
theorem C141_words (infer : List Str → Inferred) (missing : Str → Bool) (files : Str → Option Str) (fn data : Str)
    (hfn : fn = data ++ c!"L" ∨ (fn = data ∧ data.getLast? ≠ some 'L')) (fields gnames : List Str) (groups : List Group)
    (hf : 2 ≤ fields.length) (hg : GroupNames groups gnames) (hnd : (fields ++ gnames).Nodup)
    (text : Str) (lines : List Str) (rows : List (List Str)) (hfile : files data = some text) (h : HasLines text lines)
    (hr : WordRows lines rows) (hlen : ∀ r ∈ rows, r.length ≤ (fields ++ gnames).length) :
    ∃ t, usingSpaces infer missing files fields groups fn = .ok t ∧ t.labels = rows.map (fun _ => []) ∧
      Table infer missing rows 0 (fields ++ gnames) t.columns := by
  have hd : dataFile fn = data := by
    unfold dataFile
    rcases hfn with rfl | ⟨rfl, hl⟩
    · rw [if_pos (by simp), List.dropLast_concat]
    · exact if_neg hl
  have hc : columnNames fields groups = .ok (fields ++ gnames) := by
    rcases fields with _ | ⟨a, _ | ⟨b, fs⟩⟩
    · exact absurd hf (by simp)
    · exact absurd hf (by simp)
    · show Except.ok (a :: b :: fs ++ groups.flatMap groupNames) = _
      rw [groupNames_eq hg]
  obtain ⟨t, h1, h2, h3⟩ := readWords_rows infer missing (fields ++ gnames) hnd h hr 0 (by
    cases rows with
    | nil => simp
    | cons r rows =>
      have := hlen r List.mem_cons_self
      rw [List.headD_cons]
      omega) (by simpa using hlen)
  refine ⟨t, ?_, ?_, h3⟩
  · unfold usingSpaces
    rw [hc, hd]
    simp only [hfile, h1]
  · rw [h2]
    exact List.map_congr_left (fun r _ => List.take_zero)

/-- **C141**, limit: if every line has `extra` words more than there are columns, as is so if the groups of the label
have several fields, every column shows the word `extra` places after its own. -/
theorem C141_shifted (infer : List Str → Inferred) (missing : Str → Bool) (files : Str → Option Str) (fn : Str)
    (hfn : fn.getLast? ≠ some 'L') (fields gnames : List Str) (groups : List Group)
    (hf : 2 ≤ fields.length) (hg : GroupNames groups gnames) (hnd : (fields ++ gnames).Nodup)
    (text : Str) (lines : List Str) (rows : List (List Str)) (hfile : files fn = some text) (h : HasLines text lines)
    (hr : WordRows lines rows) (hne : rows ≠ []) (extra : Nat)
    (hlen : ∀ r ∈ rows, r.length = (fields ++ gnames).length + extra) :
    ∃ t, usingSpaces infer missing files fields groups fn = .ok t ∧ t.labels = rows.map (List.take extra) ∧
      Table infer missing rows extra (fields ++ gnames) t.columns := by
  have hc : columnNames fields groups = .ok (fields ++ gnames) := by
    rcases fields with _ | ⟨a, _ | ⟨b, fs⟩⟩
    · exact absurd hf (by simp)
    · exact absurd hf (by simp)
    · show Except.ok (a :: b :: fs ++ groups.flatMap groupNames) = _
      rw [groupNames_eq hg]
  obtain ⟨t, h1, h2⟩ := readWords_rows infer missing (fields ++ gnames) hnd h hr extra (by
    cases rows with
    | nil => exact absurd rfl hne
    | cons r rows =>
      have := hlen r List.mem_cons_self
      rw [List.headD_cons, this]
      omega) (fun r hm => (hlen r hm).le)
  refine ⟨t, ?_, h2⟩
  unfold usingSpaces
  rw [hc, show dataFile fn = fn from if_neg hfn]
  simp only [hfile, h1]

/-- **C141**, limit: the names of the columns must differ; two groups without a name, or with the same, are an
error. -/
theorem C141_same_names (infer : List Str → Inferred) (missing : Str → Bool) (files : Str → Option Str) (fn : Str)
    (fields : List Str) (pre mid post : List Group) (g g' : Group) (hf : 2 ≤ fields.length) (hname : g.name = g'.name)
    (hg : ∃ n : Int, g.repetitions = some n ∧ 0 < n) (hg' : ∃ n : Int, g'.repetitions = some n ∧ 0 < n)
    (hfile : (files (dataFile fn)).isSome) :
    usingSpaces infer missing files fields (pre ++ g :: mid ++ g' :: post) fn = .error .valueError := by
  have hc : columnNames fields (pre ++ g :: mid ++ g' :: post) =
      .ok (fields ++ (pre ++ g :: mid ++ g' :: post).flatMap groupNames) := by
    rcases fields with _ | ⟨a, _ | ⟨b, fs⟩⟩
    · exact absurd hf (by simp)
    · exact absurd hf (by simp)
    · rfl
  have hmem : ∀ g : Group, (∃ n : Int, g.repetitions = some n ∧ 0 < n) →
      ((g.name.getD c!"Group") ++ c!"_" ++ natStr 1) ∈ groupNames g := by
    rintro g ⟨n, h1, h2⟩
    unfold groupNames
    rw [h1]
    exact List.mem_map.2 ⟨0, by rw [List.mem_range]; simpa using h2, rfl⟩
  have hdup : ¬ (fields ++ (pre ++ g :: mid ++ g' :: post).flatMap groupNames).Nodup := by
    intro hnd
    have h1 := (List.nodup_append.1 hnd).2.1
    rw [List.flatMap_append, List.flatMap_append, List.flatMap_cons, List.flatMap_cons] at h1
    have h2 := (List.nodup_append.1 h1).2.2 _
      (List.mem_append_right _ (List.mem_append_left _ (hmem g hg))) _ (List.mem_append_left _ (hmem g' hg'))
    exact h2 (by rw [hname])
  obtain ⟨text, ht⟩ := Option.isSome_iff_exists.1 hfile
  unfold usingSpaces
  rw [hc]
  simp only [ht]
  unfold readWords
  rw [if_pos hdup]

/-! ### Phoenix AFM -/

theorem finish_prefix {k : Tok} {rows : List (List Str)} (h : finish k = .ok rows) : k.done <+: rows := by
  unfold finish at h
  split at h
  · cases h; exact List.prefix_rfl
  · cases h; exact List.prefix_rfl
  · cases h; exact List.prefix_rfl
  · cases h
  all_goals
    cases h
    exact ⟨_, rfl⟩

theorem firstRows_tokens {n : Nat} {text : Str} {rows : List (List Str)} (h : tokenize ',' text = .ok rows) :
    firstRows n text = .ok (rows.take n) := by
  unfold tokenize at h
  unfold firstRows
  have hp := finish_prefix h
  simp only [h]
  split
  · rename_i hn
    obtain ⟨t, rfl⟩ := hp
    rw [List.take_append_of_le_length hn]
  · rfl

theorem hasLines_drop {text : Str} {lines : List Str} (h : HasLines text lines) :
    ∀ n, HasLines ((Locate.fileLines text).drop n).flatten (lines.drop n) := by
  induction h with
  | nil => intro n; simpa [Locate.fileLines] using HasLines.nil
  | @last l hl hne =>
    intro n
    rw [fileLines_last hl.1 hne]
    cases n with
    | zero => simpa using HasLines.last hl hne
    | succ n => simpa using HasLines.nil
  | @line l e text ls hl he hls ih =>
    intro n
    have hf : Locate.fileLines (l ++ e ++ text) = (l ++ e) :: Locate.fileLines text := by
      rcases he with rfl | rfl
      · exact fileLines_lf hl.1 text
      · have : l ++ c!"\r\n" ++ text = (l ++ c!"\r") ++ c!"\n" ++ text := by simp
        rw [this, fileLines_lf (by
          rw [List.mem_append, not_or]
          exact ⟨hl.1, by decide⟩)]
        simp
    cases n with
    | zero =>
      rw [List.drop_zero, List.drop_zero, Locate.fileLines_flatten]
      exact .line hl he hls
    | succ n =>
      rw [hf, List.drop_succ_cons, List.drop_succ_cons]
      exact ih n

theorem delimited_append {sep : Char} {a b : List Str} {ra rb : List (List Str)} (ha : Delimited sep a ra)
    (hb : Delimited sep b rb) : Delimited sep (a ++ b) (ra ++ rb) := by
  unfold Delimited at *
  rw [List.filter_append]
  exact List.rel_append ha hb

/-- the rows of a part of the lines of a file -/
theorem afm_rows {content : Str} {pre own post : List Str} (h : HasLines content (pre ++ own ++ post))
    {rows more : List (List Str)} (hr : Delimited ',' own rows) (hm : Delimited ',' post more) :
    firstRows rows.length ((Locate.fileLines content).drop pre.length).flatten = .ok rows := by
  have hl := hasLines_drop h pre.length
  rw [List.append_assoc, List.drop_left' rfl] at hl
  have := tokenize_text (sep := ',') ⟨by decide, by decide, by decide⟩ hl (delimited_append hr hm)
  rw [firstRows_tokens this, List.take_left' rfl]

theorem afm_table (infer : List Str → Inferred) (missing : Str → Bool) {content : Str} {pre own post : List Str}
    (h : HasLines content (pre ++ own ++ post)) {rows more : List (List Str)} (hr : Delimited ',' own rows)
    (hm : Delimited ',' post more) (names : List Str) (name : Str) (hw : window name = some (pre.length, rows.length))
    (hf : Fits (names.filter (fun m => !contains m c!"PLACEHOLDER")).length rows) :
    ∃ out, afmTable infer missing content names name = .ok out ∧
      Table infer missing rows 0 (names.filter (fun m => !contains m c!"PLACEHOLDER")) out := by
  unfold afmTable
  rw [hw]
  simp only [afm_rows h hr hm, rectangle_fits hf, ne_eq, not_true_eq_false, if_false, columnsOf_field]
  generalize names.filter (fun m => !contains m c!"PLACEHOLDER") = N at *
  refine ⟨_, rfl, ?_, ?_⟩
  · rw [List.map_fst_zip]
    simp
  · intro k q hq
    obtain ⟨hk, rfl⟩ := List.getElem?_eq_some_iff.1 hq
    rw [List.getElem_zip]
    simp only [List.getElem_map, List.getElem_range, Nat.zero_add]
    exact column_shown infer missing _

/-- **C142.** The file of a Phoenix AFM scan: four lines of header, then tables of 512 lines, in a fixed order. Each
table of the label shows the lines of its own part only: column `k` the field at place `k` of each line, under the
`k`th name of the format definition that is no placeholder. -/
theorem C142_tables (infer : List Str → Inferred) (missing : Str → Bool) (content : Str) (header rest own : List Str)
    (tables : List (List Str)) (h : HasLines content (header ++ tables.flatten ++ rest)) (hh : header.length = 4)
    (ht : ∀ t ∈ tables, t.length = 512) (k : Nat) (hk : tables[k]? = some own) (name : Str)
    (hname : scanOrder[k]? = some name) (rows more : List (List Str)) (hr : List.Forall₂ (Fields ',') own rows)
    (hb : ∀ l ∈ own, ¬ Blank ',' l)
    (hm : Delimited ',' ((tables.drop (k + 1)).flatten ++ rest) more) (names : List Str)
    (hf : Fits (names.filter (fun m => !contains m c!"PLACEHOLDER")).length rows) :
    ∃ out, afmTable infer missing content names name = .ok out ∧
      Table infer missing rows 0 (names.filter (fun m => !contains m c!"PLACEHOLDER")) out := by
  have hmem : own ∈ tables := List.mem_of_getElem? hk
  have hsplit : tables = tables.take k ++ own :: tables.drop (k + 1) := by
    obtain ⟨hlt, rfl⟩ := List.getElem?_eq_some_iff.1 hk
    rw [List.cons_getElem_drop_succ, List.take_append_drop]
  have hpre : (header ++ (tables.take k).flatten).length = 4 + 512 * k := by
    obtain ⟨hlt, _⟩ := List.getElem?_eq_some_iff.1 hk
    have : ∀ ts : List (List Str), (∀ t ∈ ts, t.length = 512) → ts.flatten.length = 512 * ts.length := by
      intro ts
      induction ts with
      | nil => intro _; rfl
      | cons t ts ih =>
        intro h
        rw [List.flatten_cons, List.length_append, h t List.mem_cons_self,
          ih (fun x hx => h x (List.mem_cons_of_mem _ hx)), List.length_cons]
        omega
    rw [List.length_append, hh, this _ (fun t hm => ht t (List.mem_of_mem_take hm)), List.length_take,
      Nat.min_eq_left (by omega)]
  have hl : HasLines content ((header ++ (tables.take k).flatten) ++ own ++ ((tables.drop (k + 1)).flatten ++ rest)) := by
    have e : header ++ tables.flatten ++ rest =
        (header ++ (tables.take k).flatten) ++ own ++ ((tables.drop (k + 1)).flatten ++ rest) := by
      conv_lhs => rw [hsplit]
      simp [List.append_assoc]
    rw [← e]; exact h
  have hd : Delimited ',' own rows := by
    unfold Delimited
    rw [List.filter_eq_self.2 (fun l hl => by simpa using hb l hl)]
    exact hr
  refine afm_table infer missing hl hd hm names name ?_ hf
  rw [hpre, ← hr.length_eq, ht own hmem]
  unfold scanOrder at hname
  match k, hname with
  | 0, hname => cases hname; rfl
  | 1, hname => cases hname; rfl
  | 2, hname => cases hname; rfl
  | 3, hname => cases hname; rfl

/-- **C142**, the header: a table with HEADER_TABLE in its name is the first four lines. -/
theorem C142_header (infer : List Str → Inferred) (missing : Str → Bool) (content : Str) (header rest : List Str)
    (h : HasLines content (header ++ rest)) (hh : header.length = 4) (name : Str) (hname : c!"HEADER_TABLE" <:+: name)
    (rows more : List (List Str)) (hr : List.Forall₂ (Fields ',') header rows) (hb : ∀ l ∈ header, ¬ Blank ',' l)
    (hm : Delimited ',' rest more) (names : List Str)
    (hf : Fits (names.filter (fun m => !contains m c!"PLACEHOLDER")).length rows) :
    ∃ out, afmTable infer missing content names name = .ok out ∧
      Table infer missing rows 0 (names.filter (fun m => !contains m c!"PLACEHOLDER")) out := by
  have hd : Delimited ',' header rows := by
    unfold Delimited
    rw [List.filter_eq_self.2 (fun l hl => by simpa using hb l hl)]
    exact hr
  refine afm_table infer missing (pre := []) h hd hm names name ?_ hf
  rw [← hr.length_eq, hh]
  unfold window
  rw [if_pos ((Datatypes.contains_iff _ _).2 hname)]
  rfl

/-- **C142**, errors: if the first line of a table has not as many fields as there are names that are no placeholders,
the table is not shown. -/
theorem C142_mismatch (infer : List Str → Inferred) (missing : Str → Bool) (content : Str) (header rest : List Str)
    (h : HasLines content (header ++ rest)) (hh : header.length = 4)
    (rows more : List (List Str)) (hr : List.Forall₂ (Fields ',') header rows) (hb : ∀ l ∈ header, ¬ Blank ',' l)
    (hm : Delimited ',' rest more) (names : List Str) (n : Nat) (hf : Fits n rows)
    (hn : n ≠ (names.filter (fun m => !contains m c!"PLACEHOLDER")).length) :
    afmTable infer missing content names c!"HEADER_TABLE" = .error .mismatch := by
  have hd : Delimited ',' header rows := by
    unfold Delimited
    rw [List.filter_eq_self.2 (fun l hl => by simpa using hb l hl)]
    exact hr
  have hrows := afm_rows (pre := []) h hd hm
  rw [← hr.length_eq, hh] at hrows
  unfold afmTable
  rw [show window c!"HEADER_TABLE" = some (0, 4) from rfl]
  simp only
  rw [show ([] : List Str).length = 0 from rfl] at hrows
  simp only [hrows, rectangle_fits hf]
  rw [if_pos hn]

/-! ### concrete cases -/

/-- anything is text, and nothing is missing -/
def asText : List Str → Inferred := fun _ => .text

def demoFile : Str := c!" 1  2.5 a\r\n\r\n\t3 4.5  b\n"

example : HasLines demoFile [c!" 1  2.5 a", [], c!"\t3 4.5  b"] :=
  .line (l := c!" 1  2.5 a") (e := c!"\r\n") (text := c!"\r\n\t3 4.5  b\n") ⟨by decide, by decide⟩ (.inr rfl)
    (.line (l := []) (e := c!"\r\n") (text := c!"\t3 4.5  b\n") ⟨by decide, by decide⟩ (.inr rfl)
      (.line (l := c!"\t3 4.5  b") (e := c!"\n") (text := []) ⟨by decide, by decide⟩ (.inl rfl) .nil))

/-- two fields and a group of one column -/
example : usingSpaces asText (fun _ => false) (fun f => if f = c!"a.2B" then some demoFile else none) [c!"T", c!"V"]
    [⟨some c!"G", some 1⟩] c!"a.2BL" =
    .ok ⟨[[], []], [(c!"T", .texts [some c!"1", some c!"3"]), (c!"V", .texts [some c!"2.5", some c!"4.5"]),
      (c!"G_1", .texts [some c!"a", some c!"b"])]⟩ := rfl

/-- a word more than there are names: all columns are shifted -/
example : usingSpaces asText (fun _ => false) (fun f => if f = c!"a.2B" then some demoFile else none) [c!"T", c!"V"]
    [] c!"a.2B" =
    .ok ⟨[[c!"1"], [c!"3"]], [(c!"T", .texts [some c!"2.5", some c!"4.5"]), (c!"V", .texts [some c!"a", some c!"b"])]⟩ :=
  rfl

example : GroupNames [⟨some c!"G", some 2⟩, ⟨none, some 1⟩] [c!"G_1", c!"G_2", c!"Group_1"] :=
  .cons (a := [c!"G_1", c!"G_2"]) (n := 2) (.inl rfl) (.inl rfl)
    ⟨rfl, fun i hi => by match i, hi with | 0, _ => rfl | 1, _ => rfl⟩
    (.cons (a := [c!"Group_1"]) (n := 1) (.inr ⟨rfl, rfl⟩) (.inl rfl)
      ⟨rfl, fun i hi => by match i, hi with | 0, _ => rfl⟩ .nil)

/-- the four lines of a header; what follows is not looked at -/
example : afmTable asText (fun _ => false) c!"a,1\nb,2\nc,3\nd,\"x,y\"\n1,2,3\n" [c!"KEY", c!"PLACEHOLDER_0", c!"VALUE"]
    c!"AFM_HEADER_TABLE" =
    .ok [(c!"KEY", .texts [some c!"a", some c!"b", some c!"c", some c!"d"]),
      (c!"VALUE", .texts [some c!"1", some c!"2", some c!"3", some c!"x,y"])] := rfl

/-- a scan of tables of 512 lines `1,2` and `3,4` -/
def scan : List (List Str) := [List.replicate 512 c!"1,2", List.replicate 512 c!"3,4"]

example : scan[1]? = some (List.replicate 512 c!"3,4") ∧ scanOrder[1]? = some c!"AFM_F_HEIGHT_TABLE" ∧
    (∀ t ∈ scan, t.length = 512) ∧
    List.Forall₂ (Fields ',') (List.replicate 512 c!"3,4") (List.replicate 512 [c!"3", c!"4"]) ∧
    (∀ l ∈ List.replicate 512 c!"3,4", ¬ Blank ',' l) ∧
    Fits 2 (List.replicate 512 [c!"3", c!"4"]) := by
  have hf : Fields ',' c!"3,4" [c!"3", c!"4"] :=
    ⟨[c!"3", c!"4"], by simp, .cons (.plain (by decide) (by decide)) (.cons (.plain (by decide) (by decide)) .nil), rfl⟩
  have all : ∀ n : Nat, List.Forall₂ (Fields ',') (List.replicate n c!"3,4") (List.replicate n [c!"3", c!"4"]) := by
    intro n
    induction n with
    | zero => exact .nil
    | succ n ih => exact .cons hf ih
  refine ⟨rfl, rfl, ?_, ?_, ?_, ⟨_, rfl, rfl⟩, ?_⟩
  · intro t h
    simp only [scan, List.mem_cons, List.not_mem_nil, or_false] at h
    rcases h with rfl | rfl <;> exact List.length_replicate
  · exact all 512
  · intro l hl
    rw [List.eq_of_mem_replicate hl]
    decide
  · intro r hr
    rw [List.eq_of_mem_replicate hr]
    decide

end Verif.LooseText
