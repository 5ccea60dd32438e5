/-
C113, C114: line prefix tables that the label does not define themselves.
-/
import Verif.Spec.PrefixTable
import Verif.Props.Table

namespace Verif.PrefixTable
open Verif.Py Verif.Format Verif.Format.Spec Verif.Table Verif.Table.Spec Verif.PrefixTable.Spec

/-- without ROW_BYTES, the row ends with the last column -/
theorem padRow_open (rows : List Row) (r : Row) (hl : rows.getLast? = some r) (rs : Option Int) :
    padRow rows none rs = padRow rows (some (r.sb + r.fld.bytes)) rs := by
  unfold padRow
  rw [hl]
  simp

/-- the size of the records of a table with a suffix that ends as `EndsAt` says -/
theorem recordSize_prefix (b : Block) (first : Col) (rest : List Format.Spec.Entry) (h : Placed b first rest) (e s : Nat)
    (hp : b.rowPrefix = none) (hs : b.rowSuffix = some (s : Int))
    (hlast : ∃ before last, Entry.col first :: rest = before ++ [Entry.col last] ∧ last.itemBytes = none)
    (hin : ∀ x ∈ slots 0 (.col first :: rest), x.off + x.size ≤ e)
    (hend : b.rowBytes = some (e : Int) ∨ b.rowBytes = none ∧
      ∀ last, (Entry.col first :: rest).getLast? = some (.col last) → last.start - 1 + last.bytes = e) :
    recordSize b = some (e + s) := by
  obtain ⟨rows, tail, hparse, hnames, hslots, herase, hpad, htail⟩ := parse_placed b first rest h
  obtain ⟨before, last, hsplit, hitem⟩ := hlast
  have hp0 : b.rowPrefix.getD 0 = 0 := by rw [hp]; rfl
  rw [hp0] at hslots
  have hmem : ∀ r ∈ rows, 0 ≤ r.sb ∧ r.sb + width r.fld ≤ 0 + (e : Int) := by
    intro r hr
    have : (r.sb, width r.fld, r.fld.attrs) ∈ rows.map (fun r => (r.sb, width r.fld, r.fld.attrs)) :=
      List.mem_map.2 ⟨r, hr, rfl⟩
    rw [hslots] at this
    obtain ⟨x, hx, he⟩ := List.mem_map.1 this
    simp only [Prod.mk.injEq] at he
    rw [← he.1, ← he.2.1, zero_add]
    exact ⟨h.offsets x (by rw [hp0]; exact hx), hin x hx⟩
  obtain ⟨r, hr, hr1, hr2⟩ := last_row b first rest before last h.toLaid rows herase hsplit hitem
  have hrow : padRow rows b.rowBytes b.rowSuffix = padRow rows (some (e : Int)) b.rowSuffix := by
    rcases hend with h1 | ⟨h1, h2⟩
    · rw [h1]
    · have := h2 last (by rw [hsplit]; simp)
      rw [h1, padRow_open rows r hr, hr2, hp0, this, zero_add]
  obtain ⟨tail', hpad', hlen, _⟩ := padRow_length rows r hr hr1 e 0 b.rowSuffix (by rw [hs]; simp) (le_refl _) hmem (Or.inl rfl)
  rw [hrow, hpad'] at hpad
  have : tail' = tail := List.append_cancel_left (Except.ok.inj hpad)
  subst this
  rw [recordSize, hparse]
  simp only
  congr 1
  rw [hs] at hlen
  simp only [Option.getD_some] at hlen
  omega

/-- what is read, whatever the label says about the bytes of a line -/
theorem values (src : Source) (hv : ReadsVax src.vax32) (i : Image) (start n samples bytes e : Nat) (first : Col)
    (rest : List Format.Spec.Entry) (h : Defined i n samples bytes first rest) (he : EndsAt i first rest e)
    (hpos : 0 < e + samples * bytes) (hfile : start + n * (e + samples * bytes) ≤ src.file.length) (val : Nat → Nat → Value)
    (henc : ∀ (k : Nat) s, (slots 0 (.col first :: rest))[k]? = some s → s.attrs.scale = none ∧ s.attrs.offset = none ∧
      ∀ r < n, Encodes src.cp500 s.attrs.dataType s.size
        (bytesAt src.file (start + r * (e + samples * bytes) + s.off.toNat) s.size) (val r k)) :
    ∃ out, readPrefixTable src i start = .ok (some out) ∧ out.map Prod.fst = columnNames 0 (.col first :: rest) ∧
      ∀ (k : Nat) q, out[k]? = some q → Shows q.2 ((List.range n).map (fun r => val r k)) := by
  have hb : prefixBlock i = .ok { i.table with rows := some n, rowSuffix := some ((samples * bytes : Nat) : Int) } := by
    unfold prefixBlock rowsOf suffixOf
    simp only [h.rows, h.lines, h.noSuffix, h.bits, h.samples]
    rw [Nat.mul_div_cancel_left _ (by decide), Nat.mul_comm]
  have hpl : Placed { i.table with rows := some n, rowSuffix := some ((samples * bytes : Nat) : Int) } first rest := {
    regular := h.placed.regular, defs := h.placed.defs, table := h.placed.table, plain := h.placed.plain,
    offsets := h.placed.offsets, binary := h.placed.binary, types := h.placed.types, names := h.placed.names }
  have hp0 : i.table.rowPrefix.getD 0 = 0 := by rw [h.noPrefix]; rfl
  unfold readPrefixTable
  rw [hb]
  have := read_plain src hv { i.table with rows := some n, rowSuffix := some ((samples * bytes : Nat) : Int) } start n
    (e + samples * bytes) first rest hpl
    (recordSize_prefix _ first rest hpl e (samples * bytes) h.noPrefix rfl h.last he.1 he.2) hpos rfl hfile val
    (by simp only [hp0]; exact henc)
  simpa only [hp0] using this

/-- **C113.** -/
theorem C113_prefix_tables (src : Source) (hv : ReadsVax src.vax32) (i : Image) (start n samples bytes : Nat) (first : Col)
    (rest : List Format.Spec.Entry) (h : Defined i n samples bytes first rest)
    (hfull : EndsAt i first rest (i.linePrefixBytes.getD 0)) (hsuf : i.lineSuffixBytes.getD 0 = 0)
    (hpos : 0 < lineBytes i samples bytes) (hfile : start + n * lineBytes i samples bytes ≤ src.file.length)
    (val : Nat → Nat → Value)
    (henc : ∀ (k : Nat) s, (slots 0 (.col first :: rest))[k]? = some s → s.attrs.scale = none ∧ s.attrs.offset = none ∧
      ∀ line < n, Encodes src.cp500 s.attrs.dataType s.size
        (bytesAt src.file (start + line * lineBytes i samples bytes + s.off.toNat) s.size) (val line k)) :
    ∃ out, readPrefixTable src i start = .ok (some out) ∧ out.map Prod.fst = columnNames 0 (.col first :: rest) ∧
      ∀ (k : Nat) q, out[k]? = some q → Shows q.2 ((List.range n).map (fun line => val line k)) := by
  have e : lineBytes i samples bytes = i.linePrefixBytes.getD 0 + samples * bytes := by rw [lineBytes, hsuf, Nat.add_zero]
  rw [e] at hpos hfile henc
  exact values src hv i start n samples bytes _ first rest h hfull hpos hfile val henc

/-- **C114 (limit).** The rows are taken from the file in steps of the columns and the samples, whatever LINE_PREFIX_BYTES,
LINE_SUFFIX_BYTES and BANDS are: each row after the first shows bytes of another place than the prefix of its line if the
columns do not fill the prefix or there is a suffix. -/
theorem C114_steps (src : Source) (hv : ReadsVax src.vax32) (i : Image) (start n samples bytes e : Nat) (first : Col)
    (rest : List Format.Spec.Entry) (h : Defined i n samples bytes first rest) (he : EndsAt i first rest e)
    (hpos : 0 < e + samples * bytes) (hfile : start + n * (e + samples * bytes) ≤ src.file.length)
    (hgap : e < i.linePrefixBytes.getD 0 ∨ 0 < i.lineSuffixBytes.getD 0 ∧ e ≤ i.linePrefixBytes.getD 0) (val : Nat → Nat → Value)
    (henc : ∀ (k : Nat) s, (slots 0 (.col first :: rest))[k]? = some s → s.attrs.scale = none ∧ s.attrs.offset = none ∧
      ∀ r < n, Encodes src.cp500 s.attrs.dataType s.size
        (bytesAt src.file (start + r * (e + samples * bytes) + s.off.toNat) s.size) (val r k)) :
    (∃ out, readPrefixTable src i start = .ok (some out) ∧ out.map Prod.fst = columnNames 0 (.col first :: rest) ∧
      ∀ (k : Nat) q, out[k]? = some q → Shows q.2 ((List.range n).map (fun r => val r k))) ∧
    ∀ r, 0 < r → start + r * (e + samples * bytes) < start + r * lineBytes i samples bytes := by
  refine ⟨values src hv i start n samples bytes e first rest h he hpos hfile val henc, ?_⟩
  intro r hr
  have : e + samples * bytes < lineBytes i samples bytes := by unfold lineBytes; omega
  have := Nat.mul_lt_mul_of_pos_left this hr
  omega

/-- **C114 (missing values).** Without LINES and ROWS, or without SAMPLE_BITS or LINE_SAMPLES, the table is not read. -/
theorem C114_missing (src : Source) (i : Image) (start : Nat) (h : i.table.rows = none ∧ i.lines = none ∨
      i.table.rowSuffix = none ∧ (i.sampleBits = none ∨ i.lineSamples = none)) :
    readPrefixTable src i start = .error .keyError := by
  unfold readPrefixTable prefixBlock
  rcases h with ⟨h1, h2⟩ | ⟨h1, h2 | h2⟩
  · simp only [rowsOf, h1, h2]
  · have : suffixOf i = .error .keyError := by simp only [suffixOf, h1, h2]
    rw [this]
    cases hr : rowsOf i with
    | ok r => rfl
    | error e =>
      simp only
      unfold rowsOf at hr
      split at hr
      · cases hr
      · split at hr <;> cases hr
        rfl
  · have : suffixOf i = .error .keyError := by
      simp only [suffixOf, h1, h2]
      cases i.sampleBits <;> rfl
    rw [this]
    cases hr : rowsOf i with
    | ok r => rfl
    | error e =>
      simp only
      unfold rowsOf at hr
      split at hr
      · cases hr
      · split at hr <;> cases hr
        rfl

/-- **C114 (what the structure says itself).** ROWS and ROW_SUFFIX_BYTES of the structure, where they are given, are used
instead of LINES and of the bytes of the samples. -/
theorem C114_given (src : Source) (i : Image) (start r : Nat) (s : Int) :
    (i.table.rows = some r → i.table.rowSuffix = some s → readPrefixTable src i start = readTable src i.table start) ∧
    (∀ bits samples, i.table.rows = some r → i.table.rowSuffix = none → i.sampleBits = some bits → i.lineSamples = some samples →
      readPrefixTable src i start = readTable src { i.table with rowSuffix := some ((bits / 8 * samples : Nat) : Int) } start) ∧
    (i.table.rows = none → i.lines = some r → i.table.rowSuffix = some s →
      readPrefixTable src i start = readTable src { i.table with rows := some r } start) := by
  refine ⟨?_, ?_, ?_⟩
  · intro h1 h2
    simp only [readPrefixTable, prefixBlock, rowsOf, suffixOf, h1, h2]
    rw [← h1, ← h2]
  · intro bits samples h1 h2 h3 h4
    simp only [readPrefixTable, prefixBlock, rowsOf, suffixOf, h1, h2, h3, h4]
  · intro h1 h2 h3
    simp only [readPrefixTable, prefixBlock, rowsOf, suffixOf, h1, h2, h3]

/-! ### an example -/

/-- a column with the number of the line -/
def exCol : Col where
  name := c!"LINE_NUMBER"
  start := 1
  bytes := 2
  attrs := { dataType := c!"MSB_INTEGER" }

/-- 2 lines of 3 samples of one byte, with prefixes of 2 bytes -/
def exImage : Image where
  lines := some 2
  lineSamples := some 3
  sampleBits := some 8
  linePrefixBytes := some 2
  table := { name := c!"IMAGE_LINE_PREFIX_TABLE", defs := (Entry.col exCol :: []).map Entry.toDef }

/-- its file -/
def exFile : Bytes := [0, 1, 10, 11, 12, 255, 254, 20, 21, 22]

theorem ex_means : Datatypes.Spec.Means (Datatypes.underscored c!"MSB_INTEGER") 2 ⟨some .big, .int, 2⟩ :=
  .integer (o := .big) (k := .int) ⟨Or.inl (by decide), by decide⟩ (by decide)
    (by constructor
        · intro h; cases h
        · rintro (h | h | h) <;> exact absurd h (by decide)) (Or.inl rfl)
    (by constructor
        · intro h; cases h
        · intro h; exact absurd h (by decide))

theorem ex_defined : Defined exImage 2 3 1 exCol [] where
  lines := rfl
  samples := rfl
  bits := rfl
  rows := rfl
  noPrefix := rfl
  noSuffix := rfl
  last := ⟨[], exCol, rfl, rfl⟩
  placed := {
    regular := by
      refine ⟨⟨⟨by decide, (fun h => by cases h), by intro o h; cases h⟩, ?_⟩, ?_, trivial, ?_⟩
      · intro e he; cases he
      · exact ⟨List.nodup_nil, fun n h => by cases h⟩
      · decide
    defs := rfl
    table := by intro t h; cases h
    plain := by decide
    offsets := by decide
    binary := by decide
    types := by
      intro s hs
      simp only [slots, slotsOf, List.flatMap_cons, List.flatMap_nil, List.append_nil] at hs
      rw [show copies exCol.items = 1 from rfl] at hs
      simp at hs
      subst hs
      exact ⟨by decide, Or.inl (by rintro ⟨h | h, _⟩ <;> exact absurd h (by decide)), ⟨⟨some .big, .int, 2⟩, ex_means⟩⟩
    names := by decide }

/-- the hypotheses of C113 hold for the example: its rows are 1 and -2 -/
example (src : Source) (hv : ReadsVax src.vax32) (hsrc : src.file = exFile) :
    ∃ out, readPrefixTable src exImage 0 = .ok (some out) ∧ out.map Prod.fst = [c!"LINE_NUMBER"] ∧
      ∀ (k : Nat) q, out[k]? = some q → Shows q.2 [.int 1, .int (-2)] := by
  have := C113_prefix_tables src hv exImage 0 2 3 1 exCol [] ex_defined
    ⟨by decide, Or.inr ⟨rfl, fun last h => by cases h; decide⟩⟩ rfl (by decide) (by rw [hsrc]; decide)
    (fun line _ => if line = 0 then .int 1 else .int (-2)) ?_
  · exact this
  · intro k s hk
    have hs : slots 0 (.col exCol :: []) = [⟨c!"LINE_NUMBER", 1, 0, 2, 2, { dataType := c!"MSB_INTEGER" }⟩] := by
      simp only [slots, slotsOf, List.flatMap_cons, List.flatMap_nil, List.append_nil]
      rw [show copies exCol.items = 1 from rfl]
      rfl
    rw [hs] at hk
    match k, hk with
    | 0, hk =>
      cases hk
      refine ⟨rfl, rfl, ?_⟩
      intro line hl
      rw [hsrc]
      have : line = 0 ∨ line = 1 := by omega
      rcases this with rfl | rfl
      · exact .plain ex_means (by decide) (by decide) (by rintro ⟨h | h, _⟩ <;> exact absurd h (by decide))
          (.signed (by decide) (by decide) (by decide) (by decide) (by decide))
      · exact .plain ex_means (by decide) (by decide) (by rintro ⟨h | h, _⟩ <;> exact absurd h (by decide))
          (.signed (by decide) (by decide) (by decide) (by decide) (by decide))
    | k + 1, hk => cases hk

/-- the same image with a prefix of 3 bytes of which the table uses 2: the hypothesis of C114 that there is a gap -/
example : (2 : Nat) < ({ exImage with linePrefixBytes := some 3 } : Image).linePrefixBytes.getD 0 ∨ 0 < exImage.lineSuffixBytes.getD 0 ∧ 2 ≤ 3 :=
  Or.inl (by decide)

end Verif.PrefixTable
