/-
C115, C116: histograms.
-/
import Verif.Spec.Histogram
import Verif.Props.TableScale
import Verif.Props.TableReals
import Verif.Props.FitsMore

namespace Verif.Histogram
open Verif.Py Verif.Format Verif.Format.Spec Verif.Datatypes Verif.Datatypes.Spec Verif.Table Verif.Table.Spec
  Verif.Histogram.Spec

/-! ### names -/

theorem reindex_same (n : Nat) (nm : Str) (starts : List Str) (hr : nm ≠ c!"RESERVED") :
    reindexNames (List.replicate n nm) starts = (List.range n).map (fun i => if n = 1 then nm else numbered nm i) := by
  unfold reindexNames
  rw [List.length_replicate]
  apply List.map_congr_left
  intro i hi
  have hi := List.mem_range.1 hi
  have h1 : (List.replicate n nm).getD i [] = nm := by
    rw [List.getD_eq_getElem?_getD, List.getElem?_replicate, if_pos hi]; rfl
  have h2 : occurrence (List.replicate n nm) i = i := by
    unfold occurrence
    rw [h1, List.take_replicate, List.count_replicate_self]
    omega
  simp only [h1, h2, List.count_replicate_self, if_neg hr]
  by_cases hn : n = 1
  · rw [if_pos (by omega), if_pos hn]
  · rw [if_neg (by omega), if_neg hn]

theorem natStr_no {c : Char} (h : c.isDigit = false) (i : Nat) : c ∉ natStr i := by
  intro hc
  have := Pds4Table.natStr_digit hc
  rw [h] at this
  cases this

theorem name_plain (nm : Str) (n i : Nat) (h : ¬ c!"PLACEHOLDER" <:+: nm) :
    ¬ c!"PLACEHOLDER" <:+: (if n = 1 then nm else numbered nm i) := by
  split
  · exact h
  · intro hi
    unfold numbered at hi
    rw [List.append_assoc] at hi
    apply h
    have := Fits.infix_of_append (h := c!"PLACEHOLDE") (c := 'R') hi (by
      intro hm
      rcases List.mem_append.1 hm with h1 | h1
      · exact absurd h1 (by decide)
      · exact natStr_no (by decide) i h1)
    exact this

theorem no_contains {s u : Str} (h : ¬ u <:+: s) : contains s u = false :=
  Bool.eq_false_iff.2 (fun hc => h ((contains_iff _ _).1 hc))

/-! ### a histogram as a table with one column -/

/-- what the fields of a record have in common with others that are read in the same way -/
def norm (c : TCol) : TCol := ⟨{ name := c.fld.name, startByte := 0, bytes := c.fld.bytes, attrs := c.fld.attrs }, c.sb, c.dt⟩

theorem mapM_norm (src : Source) (recs : List Bytes) (cols : List TCol) :
    (cols.map norm).mapM (columnOf src recs) = cols.mapM (columnOf src recs) := by
  rw [List.mapM_map]
  rfl

theorem readFields_norm (src : Source) (cols : List TCol) (L count start : Nat) :
    readFields src (cols.map norm) L count start = readFields src cols L count start := by
  unfold readFields
  cases readRecords src.compressed src.file start L count with
  | error e => rfl
  | ok recs =>
    simp only [mapM_norm, List.map_map]
    rfl

theorem readTable_fields (src : Source) (b : Table.Block) (start L : Nat) (rows : List Row) (cols : List TCol)
    (h : Table.parseStructure b = .ok (rows, some (cols, L))) :
    Table.readTable src b start = readFields src cols L (b.rows.getD 1) start := by
  unfold Table.readTable
  rw [h]
  rfl

/-- the items as a column -/
def col (h : Block) (n size : Nat) : Col where
  name := h.histName.getD h.name
  start := 1
  bytes := n * size
  items := some n
  itemBytes := some size
  attrs := h.attrs

/-- a table with this column -/
def asTable (h : Block) (n size : Nat) : Table.Block where
  name := c!"TABLE"
  defs := [(Entry.col (col h n size)).toDef]

theorem slots_col (h : Block) (n size : Nat) (hn : 0 < n) : slots 0 [.col (col h n size)] =
    (List.range n).map (fun (i : Nat) => ⟨h.histName.getD h.name, 1, ((i * size : Nat) : Int), size, n * size, h.attrs⟩) := by
  simp only [slots, slotsOf, List.flatMap_cons, List.flatMap_nil, List.append_nil]
  rw [show copies (col h n size).items = n by show max n 1 = n; omega]
  apply List.map_congr_left
  intro i _
  simp [col, Col.stride, Col.size]

theorem names_col (h : Block) (n size : Nat) (hn : 0 < n) (hr : h.histName.getD h.name ≠ c!"RESERVED") :
    columnNames 0 [.col (col h n size)] = (List.range n).map (itemName h n) := by
  unfold columnNames
  rw [slots_col h n size hn, List.map_map]
  have : ((List.range n).map ((fun x : Slot => x.name) ∘ fun (i : Nat) =>
      (⟨h.histName.getD h.name, 1, ((i * size : Nat) : Int), size, n * size, h.attrs⟩ : Slot))) =
      List.replicate n (h.histName.getD h.name) := by
    rw [List.eq_replicate_iff]
    simp
  rw [this, reindex_same _ _ _ hr]
  rfl

theorem copies_eq {h : Block} {n size : Nat} (hb : Binary h n size) : copiesOf h = n := by
  unfold copiesOf
  rw [hb.items.1]
  have := hb.items.2
  simp only [Option.getD_some]
  split <;> omega

theorem names_eq {h : Block} {n size : Nat} (hb : Binary h n size) : namesOf h = (List.range n).map (itemName h n) := by
  unfold namesOf
  rw [copies_eq hb, reindex_same _ _ _ hb.label.1]
  rfl

theorem placed {h : Block} {n size : Nat} (hb : Binary h n size) : Placed (asTable h n size) (col h n size) [] where
  regular := by
    refine ⟨⟨⟨?_, fun _ => rfl, by intro o ho; cases ho⟩, by intro e he; cases he⟩, ⟨List.nodup_nil, fun n h => by cases h⟩, trivial, ?_⟩
    · intro hc
      apply hb.label.2
      show _ <:+: (col h n size).name
      rw [hc]
      decide
    · simp [Entry.itemStarts, Col.itemStart, col]
  defs := rfl
  table := by intro t ht; cases ht
  plain := by
    intro m hm
    rw [show (asTable h n size).rowPrefix.getD 0 = 0 from rfl, names_col h n size hb.items.2 hb.label.1] at hm
    obtain ⟨i, -, rfl⟩ := List.mem_map.1 hm
    exact name_plain _ n i hb.label.2
  offsets := by
    intro s hs
    rw [show (asTable h n size).rowPrefix.getD 0 = 0 from rfl, slots_col h n size hb.items.2] at hs
    obtain ⟨i, -, rfl⟩ := List.mem_map.1 hs
    exact Int.natCast_nonneg _
  binary := by
    show ¬ c!"SPREADSHEET" <:+: c!"TABLE" ∧ ¬ c!"ASCII" <:+: c!"TABLE" ∧ (none : Option Str) ≠ some c!"ASCII"
    decide
  types := by
    intro s hs
    rw [show (asTable h n size).rowPrefix.getD 0 = 0 from rfl, slots_col h n size hb.items.2] at hs
    obtain ⟨i, -, rfl⟩ := List.mem_map.1 hs
    refine ⟨hb.type.1, ?_, hb.type.2.2⟩
    rcases hb.type.2.1 with h1 | h1
    · exact Or.inl h1
    · refine Or.inr ⟨?_, Nat.one_pos⟩
      show n * size = size
      rw [h1, Nat.one_mul]
  names := by
    rw [show (asTable h n size).rowPrefix.getD 0 = 0 from rfl, names_col h n size hb.items.2 hb.label.1]
    apply List.Nodup.map_on _ List.nodup_range
    intro i hi j hj hij
    rw [List.mem_range] at hi hj
    unfold itemName at hij
    split at hij
    · omega
    · exact (Fits.numbered_inj hij).2

/-- it is read as that table is -/
theorem as_table {h : Block} {n size : Nat} (hb : Binary h n size) (src : Source) (start : Nat) :
    recordSize (asTable h n size) = some (n * size) ∧ readHistogram src h start = Table.readTable src (asTable h n size) start := by
  obtain ⟨rows, tail, hparse, hnames, hslots, herase, hpad, htail⟩ := parse_placed _ _ _ (placed hb)
  have hp0 : (asTable h n size).rowPrefix.getD 0 = 0 := rfl
  rw [hp0] at hnames hslots herase
  have htotal : rows.map (fun r => r.fld.bytes) = (slots 0 [.col (col h n size)]).map (·.total) := by
    have := congrArg (List.map (fun r : Row => r.fld.bytes)) herase
    rw [List.map_map, List.map_map] at this
    rw [← fin_slots ⟨(asTable h n size).tableName, 1, (asTable h n size).bytes⟩, List.map_map]
    exact this
  rw [slots_col h n size hb.items.2, List.map_map] at hslots htotal
  rw [names_col h n size hb.items.2 hb.label.1] at hnames
  have ht : tail = [] := by
    unfold padRow at hpad
    split at hpad
    · cases hpad
    · simp only [asTable, Option.getD_none, add_zero, lt_irrefl, if_false] at hpad
      have := Except.ok.inj hpad
      exact (List.append_right_eq_self.1 this.symm)
  subst ht
  rw [List.append_nil] at hparse
  have hlen : rows.length = n := by
    have := congrArg List.length hslots
    simpa using this
  obtain ⟨-, -, d, hd⟩ := hb.type
  have hrow : ∀ (i : Nat) r, rows[i]? = some r → i < n ∧ r.fld.name = itemName h n i ∧ r.sb = ((i * size : Nat) : Int) ∧ width r.fld = size ∧
      r.fld.attrs = h.attrs ∧ r.fld.bytes = n * size := by
    intro i r hr
    have hi : i < n := by
      by_contra hc
      rw [List.getElem?_eq_none (by omega)] at hr
      cases hr
    have h1 := congrArg (fun l : List Str => l[i]?) hnames
    have h2 := congrArg (fun l : List (Int × Nat × Attrs) => l[i]?) hslots
    have h3 := congrArg (fun l : List Nat => l[i]?) htotal
    simp only [List.getElem?_map, hr, Option.map_some, List.getElem?_range hi, Option.some.injEq, Function.comp_apply, Prod.mk.injEq] at h1 h2 h3
    exact ⟨hi, h1, h2.1, h2.2.1, h2.2.2, h3⟩
  have hlength : (recordLength rows).toNat = n * size := by
    have hle : ∀ rs : List Row, (∀ r ∈ rs, r.sb + width r.fld ≤ ((n * size : Nat) : Int)) → recordLength rs ≤ ((n * size : Nat) : Int) := by
      intro rs
      induction rs with
      | nil => intro _; exact Int.natCast_nonneg _
      | cons r rs ih =>
        intro hrs
        exact max_le (hrs r (by simp)) (ih (fun r hr => hrs r (by simp [hr])))
    have h1 := hle rows (by
      intro r hr
      obtain ⟨i, hi⟩ := List.mem_iff_getElem?.1 hr
      obtain ⟨h1, -, h3, h4, -⟩ := hrow i r hi
      rw [h3, h4]
      have := Nat.mul_le_mul_right size h1
      rw [Nat.succ_mul] at this
      exact_mod_cast this)
    have h2 : ((n * size : Nat) : Int) ≤ recordLength rows := by
      have hn := hb.items.2
      obtain ⟨r, hr⟩ : ∃ r, rows[n - 1]? = some r := ⟨_, List.getElem?_eq_getElem (by omega)⟩
      obtain ⟨-, -, h3, h4, -⟩ := hrow _ r hr
      have := le_recordLength rows r (List.mem_of_getElem? hr)
      rw [h3, h4] at this
      have e : (n - 1) * size + size = n * size := by
        rw [← Nat.succ_mul]; congr 1; omega
      rw [← e]
      exact_mod_cast this
    omega
  rw [hlength] at hparse
  refine ⟨by rw [recordSize, hparse], ?_⟩
  rw [readTable_fields src _ start _ _ _ hparse]
  have hbytes : bytesOf h = .ok (some (n * size)) := by
    unfold bytesOf
    rcases hb.bytes with h1 | h1
    · have hA : probablyAscii h = false := by
        unfold probablyAscii
        rw [no_contains hb.type.1, no_contains hb.objectName.1, no_contains hb.objectName.2]
        simpa using hb.interchange
      simp [h1, hb.items.1, hb.itemBytes.1, hA]
    · rw [h1]
  have hA : probablyAscii h = false := by
    unfold probablyAscii
    rw [no_contains hb.type.1, no_contains hb.objectName.1, no_contains hb.objectName.2]
    simpa using hb.interchange
  have hdt : itemDtype h (n * size) = .ok d := by
    obtain ⟨code, h1, h2, -⟩ := C10_types_mean_what_they_say _ _ _ hd
    unfold itemDtype
    rw [hb.itemBytes.1, Option.getD_some, h1]
    simp only [h2]
  have hsz := (dtOf_means hd).2
  have hcols : (rows.map tcol).map norm = (fieldsOf h (n * size) d).map norm := by
    apply List.ext_getElem?
    intro i
    unfold fieldsOf
    rw [copies_eq hb, names_eq hb, List.map_map, List.map_map, List.getElem?_map, List.getElem?_map]
    by_cases hi : i < n
    · obtain ⟨r, hr⟩ : ∃ r, rows[i]? = some r := ⟨_, List.getElem?_eq_getElem (by omega)⟩
      obtain ⟨-, h2, h3, h4, h5, h6⟩ := hrow i r hr
      rw [hr, List.getElem?_range hi]
      simp only [Option.map_some, Function.comp_apply]
      congr 1
      unfold norm tcol
      simp only [h2, h3, h4, h5, h6, (dtOf_means hd).1, hsz]
      rw [List.getD_eq_getElem?_getD, List.getElem?_map, List.getElem?_range hi]
      rfl
    · rw [List.getElem?_eq_none (by omega), List.getElem?_eq_none (by simp; omega)]
      rfl
  rw [← readFields_norm src (rows.map tcol), hcols, readFields_norm]
  unfold readHistogram parseStructure
  rw [if_neg hb.interchange, hbytes]
  simp only [hb.noStart, Option.isSome_none, hA, Bool.false_eq_true, if_false, hdt, copies_eq hb, hsz, hb.noRows]
  rfl

theorem slot_at {h : Block} {n size : Nat} (hb : Binary h n size) (k : Nat) (s : Slot)
    (hk : (slots 0 [.col (col h n size)])[k]? = some s) :
    k < n ∧ s = ⟨h.histName.getD h.name, 1, ((k * size : Nat) : Int), size, n * size, h.attrs⟩ := by
  rw [slots_col h n size hb.items.2, List.getElem?_map] at hk
  by_cases h1 : k < n
  · rw [List.getElem?_range h1] at hk
    exact ⟨h1, (Option.some.inj hk).symm⟩
  · rw [List.getElem?_eq_none (by simpa using h1)] at hk
    cases hk

/-- **C115 (scaled).** A binary HISTOGRAM of `n` items becomes a table with one row and `n` columns; column number `i` shows
the item number `i`, multiplied with SCALING_FACTOR and shifted by OFFSET. -/
theorem C115_scaled (src : Source) (hv : ReadsVax src.vax32) (h : Block) (n size start : Nat) (hb : Binary h n size)
    (hfile : start + n * size ≤ src.file.length) (val : Nat → Value)
    (henc : ∀ i < n, Encodes src.cp500 h.attrs.dataType size (bytesAt src.file (start + i * size) size) (val i))
    (hscale : h.attrs.scale = none ∧ h.attrs.offset = none ∨
      h.attrs.dataType ≠ c!"BOOLEAN" ∧ Native h.attrs.dataType ∧ factor h.attrs ≠ 0 ∧ ∃ d, Means (underscored h.attrs.dataType) size d ∧
        ∀ i < n, ExactFor h.attrs (Amount (val i)) d) :
    ∃ out, readHistogram src h start = .ok (some out) ∧ out.map Prod.fst = (List.range n).map (itemName h n) ∧
      ∀ i q, out[i]? = some q → ∃ w, Shows q.2 [w] ∧ Scaled h.attrs (val i) w := by
  obtain ⟨hsize, hread⟩ := as_table hb src start
  have hslot := slot_at hb
  have := read_scaled src hv (asTable h n size) start 1 (n * size) (col h n size) [] (placed hb) hsize
    (Nat.mul_pos hb.items.2 hb.itemBytes.2) rfl (by omega) (fun _ k => val k) (by
      intro k s hk r hr
      obtain ⟨h1, rfl⟩ := hslot k s hk
      have : r = 0 := by omega
      subst this
      have := henc k h1
      simpa only [Nat.zero_mul, Nat.add_zero, Int.toNat_natCast] using this) (by
      intro k s hk
      obtain ⟨h1, rfl⟩ := hslot k s hk
      rcases hscale with h2 | ⟨h2, h3, h4, d, h5, h6⟩
      · exact Or.inl h2
      · refine Or.inr ⟨h2, h3, h4, d, h5, ?_⟩
        have e : (fun x => ∃ r < 1, Amount (val k) x) = Amount (val k) := by
          funext x
          exact propext ⟨fun ⟨_, _, h⟩ => h, fun h => ⟨0, Nat.one_pos, h⟩⟩
        show ExactFor h.attrs (fun x => ∃ r < 1, Amount (val k) x) d
        rw [e]
        exact h6 k h1)
  obtain ⟨out, h1, h2, h3⟩ := this
  refine ⟨out, by rw [hread, h1], ?_, ?_⟩
  · rw [h2]
    exact names_col h n size hb.items.2 hb.label.1
  · intro i q hq
    have hi : i < n := by
      have e := congrArg List.length h2
      rw [show (asTable h n size).rowPrefix.getD 0 = 0 from rfl, names_col h n size hb.items.2 hb.label.1] at e
      simp only [List.length_map, List.length_range] at e
      by_contra hc
      rw [List.getElem?_eq_none (by omega)] at hq
      cases hq
    have hs : (slots 0 [.col (col h n size)])[i]? = some ⟨h.histName.getD h.name, 1, ((i * size : Nat) : Int), size, n * size, h.attrs⟩ := by
      rw [slots_col h n size hb.items.2, List.getElem?_map, List.getElem?_range hi]
      rfl
    obtain ⟨ws, hw1, hw2⟩ := h3 i q _ hq hs
    rw [List.range_one, List.map_singleton] at hw2
    cases hw2 with
    | cons h4 h5 =>
      cases h5
      exact ⟨_, hw1, h4⟩

/-- **C115.** Without SCALING_FACTOR and OFFSET, column number `i` shows the item number `i` as it is stored. -/
theorem C115_histograms (src : Source) (hv : ReadsVax src.vax32) (h : Block) (n size start : Nat) (hb : Binary h n size)
    (hfile : start + n * size ≤ src.file.length) (hs : h.attrs.scale = none) (ho : h.attrs.offset = none) (val : Nat → Value)
    (henc : ∀ i < n, Encodes src.cp500 h.attrs.dataType size (bytesAt src.file (start + i * size) size) (val i)) :
    ∃ out, readHistogram src h start = .ok (some out) ∧ out.map Prod.fst = (List.range n).map (itemName h n) ∧
      ∀ i q, out[i]? = some q → Shows q.2 [val i] := by
  obtain ⟨hsize, hread⟩ := as_table hb src start
  obtain ⟨out, h1, h2, h3⟩ := read_plain src hv (asTable h n size) start 1 (n * size) (col h n size) [] (placed hb) hsize
    (Nat.mul_pos hb.items.2 hb.itemBytes.2) rfl (by omega) (fun _ k => val k) (by
      intro k s hk
      obtain ⟨h1, rfl⟩ := slot_at hb k s hk
      refine ⟨hs, ho, ?_⟩
      intro r hr
      have : r = 0 := by omega
      subst this
      have := henc k h1
      simpa only [Nat.zero_mul, Nat.add_zero, Int.toNat_natCast] using this)
  exact ⟨out, by rw [hread, h1], by rw [h2]; exact names_col h n size hb.items.2 hb.label.1, h3⟩

/-! ### limits -/

/-- **C116 (text).** A HISTOGRAM of INTERCHANGE_FORMAT ASCII is refused. -/
theorem C116_ascii (src : Source) (h : Block) (start : Nat) (ha : h.interchange = some c!"ASCII") :
    readHistogram src h start = .error .notImplemented := by
  unfold readHistogram parseStructure
  rw [if_pos ha]

/-- **C116 (START_BYTE).** A HISTOGRAM with START_BYTE cannot be read, if its sizes are given and it is not taken for text
before. -/
theorem C116_start_byte (src : Source) (h : Block) (start : Nat) (ha : h.interchange ≠ some c!"ASCII")
    (hs : h.startByte.isSome = true) (hb : h.bytes.isSome = true ∨ probablyAscii h = false ∧ h.items.isSome = true ∧ h.itemBytes.isSome = true) :
    readHistogram src h start = .error .keyError := by
  have : ∃ t, bytesOf h = .ok (some t) := by
    unfold bytesOf
    rcases hb with h1 | ⟨h1, h2, h3⟩
    · obtain ⟨t, ht⟩ := Option.isSome_iff_exists.1 h1
      exact ⟨t, by rw [ht]⟩
    · obtain ⟨a, ha⟩ := Option.isSome_iff_exists.1 h2
      obtain ⟨b, hb⟩ := Option.isSome_iff_exists.1 h3
      cases h.bytes with
      | some t => exact ⟨t, rfl⟩
      | none => exact ⟨a * b, by simp [h1, ha, hb]⟩
  obtain ⟨t, ht⟩ := this
  unfold readHistogram parseStructure
  rw [if_neg ha, ht]
  simp only [hs, if_true]

/-- **C116 (sizes).** A binary HISTOGRAM without BYTES has to have ITEMS and ITEM_BYTES. -/
theorem C116_no_sizes (src : Source) (h : Block) (start : Nat) (ha : h.interchange ≠ some c!"ASCII") (hp : probablyAscii h = false)
    (hb : h.bytes = none) (hi : h.items = none ∨ h.itemBytes = none) : readHistogram src h start = .error .valueError := by
  have : bytesOf h = .error .valueError := by
    unfold bytesOf
    simp only [hb, hp, Bool.false_eq_true, if_false]
    rcases hi with h1 | h1
    · rw [h1]
    · rw [h1]; cases h.items <;> rfl
  unfold readHistogram parseStructure
  rw [if_neg ha, this]

/-- **C116 (IBM reals).** Several 4-byte IBM reals cannot be read: pdr goes by the size of all of them. -/
theorem C116_ibm (src : Source) (h : Block) (n start : Nat) (hi : h.items = some n) (hn : 2 ≤ n) (hib : h.itemBytes = some 4)
    (hbytes : h.bytes = none ∨ h.bytes = some (n * 4)) (ht : underscored h.attrs.dataType = c!"IBM_REAL")
    (ha : h.interchange ≠ some c!"ASCII") (hp : probablyAscii h = false) (hs : h.startByte = none) (hr : h.rows = none)
    (hfile : start + n * 4 ≤ src.file.length) : readHistogram src h start = .error .overflowError := by
  have hb : bytesOf h = .ok (some (n * 4)) := by
    unfold bytesOf
    rcases hbytes with h1 | h1
    · simp [h1, hp, hi, hib]
    · rw [h1]
  have hm : Means (underscored h.attrs.dataType) 4 ⟨some .big, .uint, 4⟩ := by rw [ht]; exact .ibm (by decide)
  have hdt : itemDtype h (n * 4) = .ok ⟨some .big, .uint, 4⟩ := by
    obtain ⟨code, h1, h2, -⟩ := C10_types_mean_what_they_say _ _ _ hm
    unfold itemDtype
    rw [hib, Option.getD_some, h1]
    simp only [h2]
  have hc : copiesOf h = n := by
    unfold copiesOf
    rw [hi, Option.getD_some, if_pos (by omega)]
  unfold readHistogram parseStructure
  rw [if_neg ha, hb]
  simp only [hs, Option.isSome_none, hp, Bool.false_eq_true, if_false, hdt, hc, hr, Option.getD_none]
  unfold readFields
  rw [readRecords_eq _ _ _ _ _ (by omega) (by omega)]
  simp only
  generalize (List.range 1).map (fun r => bytesAt src.file (start + r * (n * 4)) (n * 4)) = recs
  have : (fieldsOf h (n * 4) ⟨some .big, .uint, 4⟩).mapM (columnOf src recs) = .error .overflowError := by
    unfold fieldsOf
    obtain ⟨m, rfl⟩ : ∃ m, n = m + 1 := ⟨n - 1, by omega⟩
    rw [hc, List.range_succ_eq_map, List.map_cons, List.mapM_cons, ibm_column src recs _ ht]
    unfold ibmColumn
    rw [if_neg (by show (m + 1) * 4 ≠ 4; omega), if_pos (by show 4 < 7; omega)]
    rfl
  rw [this]

/-- BYTES does not matter to columns that are not of IBM or VAX reals -/
theorem columnOf_bytes (src : Source) (recs : List Bytes) (c c' : TCol) (hn : Native c.fld.attrs.dataType)
    (ha : c.fld.attrs = c'.fld.attrs) (hs : c.sb = c'.sb) (hd : c.dt = c'.dt) : columnOf src recs c = columnOf src recs c' := by
  obtain ⟨f, sb, dt⟩ := c
  obtain ⟨f', sb', dt'⟩ := c'
  simp only at ha hs hd hn
  subst hs hd
  have hn1 : ¬ (startsWith f.attrs.dataType c!"IBM" && contains f.attrs.dataType c!"REAL") = true := by
    rw [Bool.and_eq_true, contains_iff]
    intro hh
    exact hn ⟨Or.inl (List.isPrefixOf_iff_prefix.1 hh.1), hh.2⟩
  unfold columnOf
  simp only [← ha]
  rw [if_neg hn1, if_neg hn1]

/-- **C116 (no ITEM_BYTES).** Without ITEM_BYTES, each of the items is taken to have the BYTES of all of them. -/
theorem C116_no_item_bytes (src : Source) (h : Block) (n total start : Nat) (hi : h.itemBytes = none) (hb : h.bytes = some total)
    (hn : Native h.attrs.dataType) (hB : Binary { h with itemBytes := some total, bytes := some (n * total) } n total) :
    readHistogram src h start = readHistogram src { h with itemBytes := some total, bytes := some (n * total) } start := by
  have hA : probablyAscii h = false := by
    have h1 := hB.type.1
    have h2 := hB.objectName
    have h3 := hB.interchange
    unfold probablyAscii
    rw [no_contains h1, no_contains h2.1, no_contains h2.2]
    simpa using h3
  have hc : copiesOf h = n := by
    have := copies_eq hB
    exact this
  obtain ⟨-, -, d, hd⟩ := hB.type
  obtain ⟨code, c1, c2, c3⟩ := C10_types_mean_what_they_say _ _ _ hd
  have e1 : itemDtype h total = .ok d := by
    unfold itemDtype
    rw [hi, Option.getD_none, c1]
    simp only [c2]
  have e2 : itemDtype { h with itemBytes := some total, bytes := some (n * total) } (n * total) = .ok d := by
    unfold itemDtype
    simp only [Option.getD_some, c1, c2]
  have p1 : parseStructure h = .ok (some (fieldsOf h total d, n * d.size)) := by
    have hs := hB.noStart
    unfold parseStructure bytesOf
    simp only [if_neg hB.interchange, hb, show h.startByte = none from hs, Option.isSome_none, hA, Bool.false_eq_true, if_false, e1, hc]
  have p2 : parseStructure { h with itemBytes := some total, bytes := some (n * total) } =
      .ok (some (fieldsOf { h with itemBytes := some total, bytes := some (n * total) } (n * total) d, n * d.size)) := by
    have hA' : probablyAscii { h with itemBytes := some total, bytes := some (n * total) } = false := hA
    have hc' : copiesOf { h with itemBytes := some total, bytes := some (n * total) } = n := hc
    unfold parseStructure bytesOf
    have hs : h.startByte = none := hB.noStart
    simp only [if_neg hB.interchange, hs, Option.isSome_none, Bool.false_eq_true, if_false]
    rw [hs] at hA' hc' e2
    simp only [hA', Bool.false_eq_true, if_false, e2, hc']
  unfold readHistogram
  rw [p1, p2]
  simp only
  unfold readFields
  cases readRecords src.compressed src.file start (n * d.size) (h.rows.getD 1) with
  | error e => rfl
  | ok recs =>
    have hm : (fieldsOf h total d).mapM (columnOf src recs) =
        (fieldsOf { h with itemBytes := some total, bytes := some (n * total) } (n * total) d).mapM (columnOf src recs) := by
      unfold fieldsOf
      rw [List.mapM_map, List.mapM_map]
      congr 1
      funext i
      exact columnOf_bytes src recs _ _ hn rfl rfl rfl
    simp only [hm]
    have f1 : ∀ {α : Type} (g : Str → Attrs → α), (fieldsOf h total d).map (fun c => g c.fld.name c.fld.attrs) =
        (fieldsOf { h with itemBytes := some total, bytes := some (n * total) } (n * total) d).map (fun c => g c.fld.name c.fld.attrs) := by
      intro α g
      unfold fieldsOf
      rw [List.map_map, List.map_map]
      rfl
    rw [f1 (fun m _ => m), f1 (fun _ a => a.scale), f1 (fun _ a => a.offset)]

/-! ### an example -/

/-- three counts of two bytes -/
def ex : Block where
  name := c!"IMAGE_HISTOGRAM"
  items := some 3
  itemBytes := some 2
  attrs := { dataType := c!"MSB_UNSIGNED_INTEGER" }

theorem ex_means : Means (underscored c!"MSB_UNSIGNED_INTEGER") 2 ⟨some .big, .uint, 2⟩ :=
  .integer (o := .big) (k := .uint) ⟨Or.inl (by decide), by decide⟩ (by decide)
    (by constructor
        · intro h; cases h
        · rintro (h | h | h) <;> exact absurd h (by decide)) (Or.inr rfl)
    (by constructor
        · intro _; decide
        · intro _; rfl)

theorem ex_binary : Binary ex 3 2 where
  items := ⟨rfl, by decide⟩
  itemBytes := ⟨rfl, by decide⟩
  bytes := Or.inl rfl
  noStart := rfl
  noRows := rfl
  interchange := by decide
  objectName := by decide
  type := ⟨by decide, Or.inl (by rintro ⟨h | h, _⟩ <;> exact absurd h (by decide)), _, ex_means⟩
  label := by decide

example (src : Source) (hv : ReadsVax src.vax32) (hf : src.file = [9, 0, 1, 2, 3, 0, 200]) :
    ∃ out, readHistogram src ex 1 = .ok (some out) ∧
      out.map Prod.fst = [c!"IMAGE_HISTOGRAM_0", c!"IMAGE_HISTOGRAM_1", c!"IMAGE_HISTOGRAM_2"] ∧
      ∀ i q, out[i]? = some q → Shows q.2 [[Value.int 1, .int 515, .int 200].getD i (.int 0)] := by
  have := C115_histograms src hv ex 3 2 1 ex_binary (by rw [hf]; decide) rfl rfl
    (fun i => [Value.int 1, .int 515, .int 200].getD i (.int 0)) (by
      intro i hi
      rw [hf]
      refine .plain ex_means (by decide) (by decide) (by rintro ⟨h | h, _⟩ <;> exact absurd h (by decide)) ?_
      have : i = 0 ∨ i = 1 ∨ i = 2 := by omega
      rcases this with rfl | rfl | rfl
      · exact .unsigned (by decide) (by decide)
      · exact .unsigned (by decide) (by decide)
      · exact .unsigned (by decide) (by decide))
  exact this

/-- the hypotheses of C116 hold for histograms like this one: without ITEM_BYTES, with START_BYTE, with nothing but ITEMS, of
IBM reals -/
example : Binary { ({ ex with itemBytes := none, bytes := some 2 } : Block) with itemBytes := some 2, bytes := some (3 * 2) } 3 2 :=
  { ex_binary with bytes := Or.inr rfl }

example (src : Source) : readHistogram src { ex with startByte := some 1 } 0 = .error .keyError ∧
    readHistogram src { ex with itemBytes := none } 0 = .error .valueError ∧
    readHistogram src { ex with interchange := some c!"ASCII" } 0 = .error .notImplemented :=
  ⟨C116_start_byte src _ 0 (by decide) rfl (Or.inr ⟨by decide, rfl, rfl⟩), C116_no_sizes src _ 0 (by decide) (by decide) rfl (Or.inr rfl),
    C116_ascii src _ 0 rfl⟩

example (src : Source) (hf : 12 ≤ src.file.length) :
    readHistogram src { ex with itemBytes := some 4, attrs := { dataType := c!"IBM_REAL" } } 0 = .error .overflowError :=
  C116_ibm src _ 3 0 rfl (by decide) rfl (Or.inl rfl) (by decide) (by decide) (by decide) rfl rfl (by simpa using hf)

end Verif.Histogram
