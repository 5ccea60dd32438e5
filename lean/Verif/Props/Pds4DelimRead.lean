/-
C128, C129: PDS4 products with delimited tables, from the XML of the label to the values.
-/
import Verif.Props.Pds4TableRead
import Verif.Props.Pds4Delim

namespace Verif.Pds4Read
open Verif.Py Verif.Pvl Verif.Xml.Spec Verif.Objects.Spec Verif.Pds4Read.Spec

theorem optNat_field (E : Xml.Floats ℚ) {x : Doc} (h : ∀ e ∈ elements x, NamedAs e) {n : Str} {o : Option Nat} (ho : OptionalNat x n o)
    (hn : n ∉ [c!"name", c!"title", c!"description", c!"local_identifier"]) : optNat ((dictOf E x).lookup n) = some o := by
  cases o with
  | none =>
    rw [lookup_no E h ho]
    rfl
  | some m =>
    obtain ⟨c, h1, h2⟩ := ho
    obtain ⟨-, h3, h4⟩ := field_named h h1
    rw [lookup_one E h h1, val_nat E h2 h3 (by rw [h4]; exact hn)]
    simp [optNat, natOf]

theorem strOf_wordy {M : Machine} {x : Doc} (h : ∀ e ∈ elements x, NamedAs e) {n s : Str} {c : Doc} (hc : named n x = [c]) (hs : Says c s)
    (hw : Wordy M s) (hn : n ∉ [c!"name", c!"title", c!"description", c!"local_identifier"]) :
    strOf ((dictOf M.floats x).lookup n) = some s :=
  strOf_field M.floats h ⟨c, hc, hs⟩ hn (wordy_no_int hw.1) hw.2

theorem fieldDelimOf_ok {v : Option Value} {s : Str} (h : strOf v = some s) {f : Pds4Delim.FieldDelim} (hs : lower s = fieldDelimName f) :
    fieldDelimOf v = some f := by
  unfold fieldDelimOf
  rw [h]
  simp only
  rw [hs]
  cases f <;> simp +decide [fieldDelimName, recordDelimName]

theorem recordDelimOf_ok {v : Option Value} {s : Str} (h : strOf v = some s) {f : Pds4Delim.RecordDelim} (hs : lower s = recordDelimName f) :
    recordDelimOf v = some f := by
  unfold recordDelimOf
  rw [h]
  simp only
  rw [hs]
  cases f <;> simp +decide [fieldDelimName, recordDelimName]

/-- a delimited table that is described is read with its description -/
theorem loadDelim_eq (M : Machine) {x : Doc} (h : ∀ e ∈ elements x, NamedAs e) {l : Pds4Delim.Label} (hd : DelimDoc M x l) (file : Bytes) :
    loadTable M (some file) (C x) (dictOf M.floats x) = match Pds4Delim.readDelimited M.env M.memory l file with
      | .error e => some (.error e)
      | .ok (.frame columns) => some (.ok columns)
      | .ok (.masked _) => none := by
  obtain ⟨r, r1, r2, r3, r4, r5, r6⟩ := hd.record
  have t1 : c!"Record_" <:+: c!"Record_Delimited" := (List.prefix_append c!"Record_" c!"Delimited").isInfix
  have t2 : lastPart c!"Record_Delimited" = c!"Delimited" := by decide
  have hr : r ∈ named c!"Record_Delimited" x := by rw [r1]; exact List.mem_cons_self
  have hnr := named_kid h (mem_named hr).1
  obtain ⟨raw, w1, w2, w3⟩ := contents_ok M r6 (fun y hy => named_kid hnr hy)
  have hparts : tableParts M.floats c!"Delimited" (C r) = .ok raw := by
    unfold tableParts
    rw [rawOf_eq, w1]
    simp only
    rw [checkCount_ok hnr r4, checkCount_ok hnr r5]
    simp only [w2]
  have hlabel : delimLabel (C x) (dictOf M.floats x) (dictOf M.floats r) raw = some l := by
    have hu := not_sampled h hd.no_uniform.1
    obtain ⟨c1, k1, s1, m1, n1, q1⟩ := hd.fieldDelim
    obtain ⟨c2, k2, s2, m2, n2, q2⟩ := hd.recordDelim
    unfold delimLabel
    rw [hu, natOf_field M.floats h hd.offset (by decide), natOf_field M.floats h hd.records (by decide),
      optNat_field M.floats h hd.objectLength (by decide), optNat_field M.floats hnr r3 (by decide),
      fieldDelimOf_ok (strOf_wordy h k1 m1 n1 (by decide)) q1, recordDelimOf_ok (strOf_wordy h k2 m2 n2 (by decide)) q2, w3, if_neg]
    · obtain ⟨o, n, ol, mr, fd, rd, u, body⟩ := l
      have hu' : u = [] := hd.no_uniform.2
      subst hu'
      rfl
    · rw [C_tag (named_self h)]
      simpa using hd.tag
  unfold loadTable
  rw [recordTag_only h t1 hr hd.only]
  simp only
  rw [t2, if_neg (by decide), find_named h r1, lookup_one M.floats h r1, val_container M.floats r r2]
  simp only
  rw [hparts]
  simp only
  unfold loadRecord
  rw [if_pos rfl, hlabel]
  rfl

/-! ### C129 -/

/-- **C129.** For every valid label, a delimited table whose name no later structure has, and that the label describes by `l`, is read from
the file of its file area (relative to the label) as the columns of its fields in the order of the label: for each field and each repetition
of its groups a column with the values that are written in the records, with or without quotes, whatever was in memory before. -/
theorem C129_table (M : Machine) (dir filename : Str) (root : Doc) (ds : List Described) (h : Valid root ds)
    (files : Str → Option Bytes) (before : List Described) (d : Described) (rest : List Described) (hds : ds = before ++ d :: rest)
    (area x : Doc) (hx : (structuresIn root)[before.length]? = some (area, x)) (hk : d.kind = .table)
    (hl : nameOf before d ≠ c!"label") (hr : ∀ mid e last, rest = mid ++ e :: last → nameOf (before ++ d :: mid) e ≠ nameOf before d)
    (ho : Ordinary filename (nameOf before d)) (path : Str) (hp : Located dir d.file path) (hf : ¬ FitsName path)
    (l : Pds4Delim.Label) (hd : DelimDoc M x l) (hn : Pds4Table.Spec.NamedTable l.table)
    (file : Bytes) (hfile : files path = some file) (hE : Pds4Delim.Spec.CutsAscii M.env) (rows : List (List Bytes))
    (hok : Pds4Delim.Spec.Readable M.env l file rows) :
    ∃ blocks, read M dir filename (etree root) files (nameOf before d) = some (.ok (.table blocks.flatten)) ∧
      List.Forall₂ (Pds4Delim.Spec.Block M.env l rows) (Pds4Table.Spec.leaves [] l.body).zipIdx blocks := by
  obtain ⟨blocks, b1, b2⟩ := Pds4Delim.C74_delimited M.env hE M.memory l file rows hok hn
  refine ⟨blocks, ?_, b2⟩
  rw [read_eq M dir filename h files hds hx hl hr ho hp hf, hk, hfile]
  simp only
  rw [loadDelim_eq M (structure_at h hx) hd, b1]
  rfl

/-- **C128 (delimiters).** If one table of the label is a delimited one and has no `field_delimiter` or no `record_delimiter`, nothing of the
product can be read, whatever else is in the label. -/
theorem C128_delimiters (M : Machine) (dir filename : Str) (root : Doc) (files : Str → Option Bytes) (name : Str)
    (h : ∀ e ∈ elements root, NamedAs e) (a x : Doc) (hx : (a, x) ∈ structuresIn root) (hk : HasKind (tag x) .table) (hc : Container x)
    (hone : ∀ k ∈ kids x, c!"Record_" <:+: tag k → tag k = c!"Record_Delimited") (hsome : named c!"Record_Delimited" x ≠ [])
    (hno : named c!"field_delimiter" x = [] ∨ named c!"record_delimiter" x = []) :
    ∃ e, read M dir filename (etree root) files name = some (.error e) := by
  refine read_error M dir filename _ files name (open_error_structure M dir h hx hk hc ?_)
  have hn := structure_named h hx
  obtain ⟨r, hr⟩ := List.exists_mem_of_ne_nil _ hsome
  simp only [check]
  unfold checkTable
  rw [recordTag_only hn (List.prefix_append c!"Record_" c!"Delimited").isInfix hr hone]
  simp only
  rw [if_pos]
  · exact ⟨_, rfl⟩
  · rw [Bool.not_eq_true', ← Bool.not_eq_true, hasKeys_iff M.floats hn]
    intro hall
    rw [if_pos (by decide)] at hall
    rcases hno with hno | hno
    · exact hall c!"field_delimiter" (by simp) hno
    · exact hall c!"record_delimiter" (by simp) hno

/-! ### an example -/

def delimField (name type : Str) : Doc := el c!"Field_Delimited" [tx c!"name" name, tx c!"field_number" c!"1", tx c!"data_type" type]

def delimGroup : Doc :=
  el c!"Group_Field_Delimited" [tx c!"repetitions" c!"2", tx c!"fields" c!"2", tx c!"groups" c!"0", delimField c!"V" c!"UTF8_String",
    delimField c!"W" c!"UTF8_String"]

def delimRecord : Doc :=
  el c!"Record_Delimited" [tx c!"fields" c!"2", tx c!"groups" c!"1", tx c!"maximum_record_length" c!"20",
    delimField c!"ID" c!"ASCII_Integer", delimGroup, delimField c!"T" c!"UTF8_String"]

/-- a table with this record -/
def delimTable (r : Doc) : Doc :=
  el c!"Table_Delimited" [tx c!"name" c!"my table", tx c!"offset" c!"1", tx c!"records" c!"2",
    tx c!"record_delimiter" c!"Carriage-Return Line-Feed", tx c!"field_delimiter" c!"Comma", r]

def delimDs : List Described := [⟨⟨c!"Table_Delimited", none, some c!"my table"⟩, .table, c!"table.dat"⟩]

def delimMachine : Machine := { demoMachine with env := Pds4Table.demoEnv }

theorem named_delim (r : Doc) (n : Str) : named n (delimTable r) = ([tx c!"name" c!"my table", tx c!"offset" c!"1", tx c!"records" c!"2",
    tx c!"record_delimiter" c!"Carriage-Return Line-Feed", tx c!"field_delimiter" c!"Comma", r].filter (fun k => decide (tag k = n))) := by
  unfold named
  congr

theorem named_delimRecord (n : Str) : named n delimRecord = ([tx c!"fields" c!"2", tx c!"groups" c!"1", tx c!"maximum_record_length" c!"20",
    delimField c!"ID" c!"ASCII_Integer", delimGroup, delimField c!"T" c!"UTF8_String"].filter (fun k => decide (tag k = n))) := by
  unfold named
  congr

theorem called_delimField (pre n name type : Str) : called pre n (delimField name type) =
    ([tx c!"name" name, tx c!"field_number" c!"1", tx c!"data_type" type].filter (fun k => decide (tag k = n ∨ tag k = pre ++ n))) := by
  unfold called
  congr

theorem called_delimGroup (pre n : Str) : called pre n delimGroup =
    ([tx c!"repetitions" c!"2", tx c!"fields" c!"2", tx c!"groups" c!"0", delimField c!"V" c!"UTF8_String",
      delimField c!"W" c!"UTF8_String"].filter (fun k => decide (tag k = n ∨ tag k = pre ++ n))) := by
  unfold called
  congr

theorem tag_delimField (name type : Str) : tag (delimField name type) = c!"Field_Delimited" := tag_el _ _
theorem tag_delimGroup : tag delimGroup = c!"Group_Field_Delimited" := tag_el _ _
theorem tag_delimRecord : tag delimRecord = c!"Record_Delimited" := tag_el _ _
theorem tag_delimTable (r : Doc) : tag (delimTable r) = c!"Table_Delimited" := tag_el _ _

theorem delimField_ok (name type : Str) (hn : ¬ (strip name).isEmpty = true ∧ Xml.tidy name = name)
    (ht : ¬ (strip type).isEmpty = true ∧ Xml.tidy type = type) (hw : ∃ c ∈ type, c.isAlpha = true ∨ c = '%') :
    FieldDoc delimMachine c!"Delimited" (delimField name type) ⟨name, 0, 0, type⟩ where
  container := container_el _ _ (by simp)
  plain := by
    refine plain_of ⟨.inl ?_, .inr ⟨c!"number", ?_, by decide⟩, .inl ?_⟩
    · rw [tag_tx]; decide
    · rw [tag_tx]; rfl
    · rw [tag_tx]; decide
  name := ⟨tx c!"name" name, by rw [called_delimField]; simp [tag_tx], says_tx _ _ _ hn.1 hn.2⟩
  place := by
    rw [if_pos rfl]
    exact ⟨rfl, rfl⟩
  type := ⟨tx c!"data_type" type, by rw [called_delimField]; simp [tag_tx], says_tx _ _ _ ht.1 ht.2⟩
  wordy := ⟨hw, rfl⟩
  format := .inl (by rw [called_delimField]; simp [tag_tx])

theorem delimGroup_ok : GroupDoc c!"Delimited" delimGroup ⟨none, 0, 0, 2⟩ where
  container := container_el _ _ (by simp)
  plain := by
    refine plain_of ⟨.inl ?_, .inl ?_, .inl ?_, .inl ?_, .inl ?_⟩
    · rw [tag_tx]; decide
    · rw [tag_tx]; decide
    · rw [tag_tx]; decide
    · rw [tag_delimField]; decide
    · rw [tag_delimField]; decide
  name := by simp [called_delimGroup, tag_tx, tag_delimField]
  place := by
    rw [if_pos rfl]
    exact ⟨rfl, rfl⟩
  repetitions := ⟨tx c!"repetitions" c!"2", by simp [called_delimGroup, tag_tx, tag_delimField],
    digit_says _ _ _ (.inl ⟨by decide, by decide⟩) (by decide) (by decide) (by decide)⟩
  fields := by simp [called_delimGroup, tag_tx, tag_delimField]
  groups := by simp [called_delimGroup, tag_tx, tag_delimField]

theorem delim_ok : DelimDoc delimMachine (delimTable delimRecord) Pds4Delim.demo where
  tag := by
    rw [tag_delimTable]
    decide
  offset := ⟨tx c!"offset" c!"1", by simp [named_delim, tag_tx, tag_delimRecord],
    digit_says _ _ _ (.inl ⟨by decide, by decide⟩) (by decide) (by decide) (by decide)⟩
  records := ⟨tx c!"records" c!"2", by simp [named_delim, tag_tx, tag_delimRecord],
    digit_says _ _ _ (.inl ⟨by decide, by decide⟩) (by decide) (by decide) (by decide)⟩
  objectLength := by
    show named c!"object_length" _ = []
    simp [named_delim, tag_tx, tag_delimRecord]
  fieldDelim := ⟨tx c!"field_delimiter" c!"Comma", by simp [named_delim, tag_tx, tag_delimRecord], c!"Comma",
    says_tx _ _ _ (by decide) (by decide), ⟨⟨'C', by decide, by decide⟩, rfl⟩, by decide⟩
  recordDelim := ⟨tx c!"record_delimiter" c!"Carriage-Return Line-Feed", by simp [named_delim, tag_tx, tag_delimRecord],
    c!"Carriage-Return Line-Feed", says_tx _ _ _ (by decide) (by decide), ⟨⟨'C', by decide, by decide⟩, rfl⟩, by decide⟩
  record := by
    refine ⟨delimRecord, ?_, container_el _ _ (by simp),
      ⟨tx c!"maximum_record_length" c!"20", by simp [named_delimRecord, tag_tx, tag_delimField, tag_delimGroup],
        c!"20", says_tx _ _ _ (by decide) (by decide), [2, 0], .cons (.inl ⟨by decide, by decide⟩) (.cons (.inl ⟨by decide, by decide⟩) .nil),
        by decide, by decide, by decide⟩,
      ⟨tx c!"fields" c!"2", by simp [named_delimRecord, tag_tx, tag_delimField, tag_delimGroup], 2,
        digit_says _ _ _ (.inl ⟨by decide, by decide⟩) (by decide) (by decide) (by decide)⟩,
      ⟨tx c!"groups" c!"1", by simp [named_delimRecord, tag_tx, tag_delimField, tag_delimGroup], 1,
        digit_says _ _ _ (.inl ⟨by decide, by decide⟩) (by decide) (by decide) (by decide)⟩, ?_⟩
    · simp [named_delim, tag_tx, tag_delimRecord]
    · show Contents delimMachine c!"Delimited" [tx c!"fields" c!"2", tx c!"groups" c!"1", tx c!"maximum_record_length" c!"20",
        delimField c!"ID" c!"ASCII_Integer", delimGroup, delimField c!"T" c!"UTF8_String"] Pds4Delim.demo.body
      refine .other (by rw [tag_tx]; decide) (by rw [tag_tx]; decide) (.other (by rw [tag_tx]; decide) (by rw [tag_tx]; decide)
        (.other (by rw [tag_tx]; decide) (by rw [tag_tx]; decide) (.field (tag_delimField _ _) ?_ (.group tag_delimGroup delimGroup_ok ?_
          (.field (tag_delimField _ _) ?_ .nil)))))
      · exact delimField_ok _ _ (by decide) (by decide) ⟨'A', by decide, by decide⟩
      · show Contents delimMachine c!"Delimited" [tx c!"repetitions" c!"2", tx c!"fields" c!"2", tx c!"groups" c!"0",
          delimField c!"V" c!"UTF8_String", delimField c!"W" c!"UTF8_String"] _
        refine .other (by rw [tag_tx]; decide) (by rw [tag_tx]; decide) (.other (by rw [tag_tx]; decide) (by rw [tag_tx]; decide)
          (.other (by rw [tag_tx]; decide) (by rw [tag_tx]; decide) (.field (tag_delimField _ _) ?_ (.field (tag_delimField _ _) ?_ .nil))))
        · exact delimField_ok _ _ (by decide) (by decide) ⟨'U', by decide, by decide⟩
        · exact delimField_ok _ _ (by decide) (by decide) ⟨'U', by decide, by decide⟩
      · exact delimField_ok _ _ (by decide) (by decide) ⟨'U', by decide, by decide⟩
  only := by
    intro k hk
    simp only [delimTable, kids_el, List.mem_cons, List.not_mem_nil, or_false] at hk
    rcases hk with rfl | rfl | rfl | rfl | rfl | rfl
    · rw [tag_tx, ← Datatypes.contains_iff]; decide
    · rw [tag_tx, ← Datatypes.contains_iff]; decide
    · rw [tag_tx, ← Datatypes.contains_iff]; decide
    · rw [tag_tx, ← Datatypes.contains_iff]; decide
    · rw [tag_tx, ← Datatypes.contains_iff]; decide
    · exact fun _ => tag_delimRecord
  no_uniform := ⟨by simp [named_delim, tag_tx, tag_delimRecord], rfl⟩

theorem delim_kind (r : Doc) : HasKind (tag (delimTable r)) .table := by
  rw [tag_delimTable]; exact Objects.hasKind_of (by decide)

theorem delim_names : AllNamed (delimTable delimRecord) := by
  have hf : ∀ name type, AllNamed (delimField name type) := fun _ _ =>
    named_el _ _ (by decide) ⟨named_tx _ _ (by decide), named_tx _ _ (by decide), named_tx _ _ (by decide)⟩
  have h1 : AllNamed delimGroup := named_el _ _ (by decide) ⟨named_tx _ _ (by decide), named_tx _ _ (by decide), named_tx _ _ (by decide),
    hf _ _, hf _ _⟩
  have h2 : AllNamed delimRecord := named_el _ _ (by decide) ⟨named_tx _ _ (by decide), named_tx _ _ (by decide), named_tx _ _ (by decide),
    hf _ _, h1, hf _ _⟩
  exact named_el _ _ (by decide) ⟨named_tx _ _ (by decide), named_tx _ _ (by decide), named_tx _ _ (by decide), named_tx _ _ (by decide),
    named_tx _ _ (by decide), h2⟩

theorem delim_valid : Valid (rootWith (delimTable delimRecord)) delimDs where
  names := named_el _ _ (by decide) (named_el _ _ (by decide) ⟨named_el _ _ (by decide) (named_tx _ _ (by decide)), delim_names⟩)
  product := by
    rw [show tag (rootWith (delimTable delimRecord)) = c!"Product_Observational" from tag_el _ _, ← Datatypes.contains_iff]
    decide
  files := by
    intro a ha
    rw [rootWith, (table_structures ⟨_, delim_kind delimRecord⟩).1, List.mem_singleton] at ha
    rw [ha]
    exact ⟨_, table_file _⟩
  entries := by
    rw [rootWith, (table_structures ⟨_, delim_kind delimRecord⟩).2]
    refine .cons ⟨container_el _ _ (by simp), (tag_el _ _).symm, delim_kind delimRecord, ?_, ?_, table_file _⟩ .nil
    · simp [Optional, named_delim, tag_tx, tag_delimRecord]
    · exact ⟨tx c!"name" c!"my table", by simp [named_delim, tag_tx, tag_delimRecord], says_tx _ _ _ (by decide) (by decide)⟩
  arrays := by
    rw [rootWith, (table_structures ⟨_, delim_kind delimRecord⟩).2]
    intro p hp hk
    rw [List.mem_singleton] at hp
    subst hp
    cases kind_unique hk (delim_kind delimRecord)
  tables := by
    rw [rootWith, (table_structures ⟨_, delim_kind delimRecord⟩).2]
    intro p hp _
    rw [List.mem_singleton] at hp
    subst hp
    refine ⟨[tx c!"name" c!"my table", tx c!"offset" c!"1", tx c!"records" c!"2", tx c!"record_delimiter" c!"Carriage-Return Line-Feed",
      tx c!"field_delimiter" c!"Comma"], delimRecord, [], rfl, ?_, ?_, container_el _ _ (by simp), ?_, ?_, ?_, ?_, .inr ⟨tag_delimRecord, ?_, ?_⟩⟩
    · intro k hk
      simp only [List.mem_cons, List.not_mem_nil, or_false] at hk
      rcases hk with rfl | rfl | rfl | rfl | rfl <;> (rw [tag_tx, ← Datatypes.contains_iff]; decide)
    · simp [named_delim, tag_tx, tag_delimRecord]
    · simp [named_delim, tag_tx, tag_delimRecord]
    · simp [named_delim, tag_tx, tag_delimRecord]
    · simp [named_delimRecord, tag_tx, tag_delimField, tag_delimGroup]
    · simp [named_delimRecord, tag_tx, tag_delimField, tag_delimGroup]
    · simp [named_delim, tag_tx, tag_delimRecord]
    · simp [named_delim, tag_tx, tag_delimRecord]
  headers := by
    rw [rootWith, (table_structures ⟨_, delim_kind delimRecord⟩).2]
    intro p hp hk
    rw [List.mem_singleton] at hp
    subst hp
    cases kind_unique hk (delim_kind delimRecord)

/-- the hypotheses of `C129_table` are met: `data["my_table"]` has blocks of columns for ID, V, W and T -/
example : ∃ b1 b2 b3 b4, read delimMachine c!"/x" c!"/x/label.xml" (etree (rootWith (delimTable delimRecord)))
      (fun p => if p = c!"/x/table.dat" then some Pds4Delim.demoFile else none) c!"my_table" = some (.ok (.table (b1 ++ (b2 ++ (b3 ++ b4))))) ∧
    Pds4Delim.Spec.Block delimMachine.env Pds4Delim.demo Pds4Delim.demoRows ((⟨c!"V", 0, 0, c!"UTF8_String"⟩, [⟨none, 0, 0, 2⟩]), 1) b2 := by
  obtain ⟨blocks, h1, h2⟩ := C129_table delimMachine c!"/x" c!"/x/label.xml" (rootWith (delimTable delimRecord)) delimDs delim_valid
    (fun p => if p = c!"/x/table.dat" then some Pds4Delim.demoFile else none) [] delimDs[0] [] rfl
    (el c!"File_Area_Observational" [el c!"File" [tx c!"file_name" c!"table.dat"], delimTable delimRecord]) (delimTable delimRecord)
    (by rw [rootWith, (table_structures ⟨_, delim_kind delimRecord⟩).2]; rfl) rfl (by decide)
    (by intro mid e last h; cases mid <;> cases h) ⟨by decide, by decide⟩ c!"/x/table.dat" ⟨by decide, by decide, by decide⟩ not_fits
    Pds4Delim.demo delim_ok Pds4Delim.demo_named Pds4Delim.demoFile (by decide) Pds4Delim.demo_cuts Pds4Delim.demoRows Pds4Delim.demo_readable
  have hl : (Pds4Table.Spec.leaves [] Pds4Delim.demo.body).zipIdx = [((⟨c!"ID", 0, 0, c!"ASCII_Integer"⟩, []), 0),
    ((⟨c!"V", 0, 0, c!"UTF8_String"⟩, [⟨none, 0, 0, 2⟩]), 1), ((⟨c!"W", 0, 0, c!"UTF8_String"⟩, [⟨none, 0, 0, 2⟩]), 2),
    ((⟨c!"T", 0, 0, c!"UTF8_String"⟩, []), 3)] := rfl
  rw [hl] at h2
  cases h2 with
  | cons g1 h2 => cases h2 with
    | cons g2 h2 => cases h2 with
      | cons g3 h2 => cases h2 with
        | cons g4 h2 =>
          cases h2
          rename_i b1 b2 b3 b4
          refine ⟨b1, b2, b3, b4, ?_, g2⟩
          have h1 : _ = some (Except.ok (Data.table (b1 ++ (b2 ++ (b3 ++ (b4 ++ [])))))) := h1
          rw [List.append_nil] at h1
          exact h1

/-- a delimited table without its delimiters: nothing can be read -/
example : ∃ e, read delimMachine c!"/x" c!"/x/label.xml"
    (etree (rootWith (el c!"Table_Delimited" [tx c!"offset" c!"0", tx c!"records" c!"1", tx c!"record_delimiter" c!"Line-Feed", delimRecord])))
    (fun _ => some [49, 10]) c!"label" = some (.error e) := by
  have hk : HasKind (tag (el c!"Table_Delimited" [tx c!"offset" c!"0", tx c!"records" c!"1", tx c!"record_delimiter" c!"Line-Feed", delimRecord])) .table := by
    rw [tag_el]; exact Objects.hasKind_of (by decide)
  have hr : AllNamed delimRecord := fun e he => delim_names e (by
    rw [delimTable]
    simp only [AllNamed, elements, el, elementsL, List.mem_cons, List.mem_append, List.not_mem_nil, or_false] at he ⊢
    tauto)
  refine C128_delimiters delimMachine _ _ _ _ _ (named_el _ _ (by decide) (named_el _ _ (by decide) ⟨named_el _ _ (by decide) (named_tx _ _ (by decide)),
    named_el _ _ (by decide) ⟨named_tx _ _ (by decide), named_tx _ _ (by decide), named_tx _ _ (by decide), hr⟩⟩)) _ _
    (by rw [rootWith, (table_structures ⟨_, hk⟩).2]; exact List.mem_cons_self) hk (container_el _ _ (by simp)) ?_ ?_ (.inl ?_)
  · intro k hk
    simp only [kids_el, List.mem_cons, List.not_mem_nil, or_false] at hk
    rcases hk with rfl | rfl | rfl | rfl
    · rw [tag_tx, ← Datatypes.contains_iff]; decide
    · rw [tag_tx, ← Datatypes.contains_iff]; decide
    · rw [tag_tx, ← Datatypes.contains_iff]; decide
    · exact fun _ => tag_delimRecord
  · simp [named, kids_el, tag_tx, tag_delimRecord]
  · simp [named, kids_el, tag_tx, tag_delimRecord]

end Verif.Pds4Read
