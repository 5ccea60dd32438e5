/-
C64-C67: limits of reading binary tables.
-/
import Verif.Props.Table
import Verif.Props.Pds4Scale

namespace Verif.Table
open Verif.Py Verif.Format Verif.Format.Spec Verif.Datatypes Verif.Datatypes.Spec Verif.NumPy Verif.Scaling
  Verif.Float Verif.Table.Spec

/-- **C64 (limit).** In a table with a row prefix whose rows do not end with a value (there is a row suffix, or there are
unused bytes at the end of the row), pdr takes the records to be shorter than they are, ... -/
theorem C64_record_too_short (b : Block) (first : Col) (rest : List Format.Spec.Entry) (h : Placed b first rest)
    (p n s : Int) (hp : b.rowPrefix = some p) (hp0 : 0 < p) (hn : b.rowBytes = some n) (hn0 : 0 ≤ n)
    (hs : b.rowSuffix.getD 0 = s) (hs0 : 0 ≤ s)
    (hin : ∀ v ∈ slots p (.col first :: rest), v.off + v.size < p + n + s) :
    ∃ L : Nat, recordSize b = some L ∧ (L : Int) < p + n + s := by
  obtain ⟨rows, tail, hparse, hnames, hslots, herase, hpad, htail⟩ := parse_placed b first rest h
  rw [hp, Option.getD_some] at hslots
  have hmem : ∀ r ∈ rows, r.sb + width r.fld ≤ p + n + s - 1 := by
    intro r hr
    have : (r.sb, width r.fld, r.fld.attrs) ∈ rows.map (fun r => (r.sb, width r.fld, r.fld.attrs)) :=
      List.mem_map.2 ⟨r, hr, rfl⟩
    rw [hslots] at this
    obtain ⟨v, hv, he⟩ := List.mem_map.1 this
    simp only [Prod.mk.injEq] at he
    have := hin v hv
    rw [← he.1, ← he.2.1]
    omega
  have hlen : recordLength (rows ++ tail) ≤ p + n + s - 1 := by
    apply recordLength_le _ _ (by omega)
    intro x hx
    rcases List.mem_append.1 hx with h1 | h1
    · exact hmem x h1
    · cases hg : rows.getLast? with
      | none => unfold padRow at hpad; rw [hg] at hpad; cases hpad
      | some g =>
        rw [hn, padRow_eq rows g.fld g.sb hg n _ _ rfl, hs] at hpad
        split at hpad
        · have := List.append_cancel_left (Except.ok.inj hpad)
          rw [← this, List.mem_singleton] at h1
          subst h1
          simp only [width, Option.getD_none]
          omega
        · have h2 := Except.ok.inj hpad
          have h3 : tail = [] := by simpa using h2
          rw [h3] at h1
          cases h1
  refine ⟨_, by rw [recordSize, hparse], ?_⟩
  omega

/-- ... and reads every row from where the rows would be if they were that short. -/
theorem C64_rows_misplaced (src : Source) (hv : ReadsVax src.vax32) (b : Block) (start R : Nat) (first : Col) (rest : List Format.Spec.Entry)
    (h : Placed b first rest) (p n s : Int) (hp : b.rowPrefix = some p) (hp0 : 0 < p) (hn : b.rowBytes = some n) (hn0 : 0 ≤ n)
    (hs : b.rowSuffix.getD 0 = s) (hs0 : 0 ≤ s)
    (hin : ∀ v ∈ slots p (.col first :: rest), v.off + v.size < p + n + s) :
    ∃ L : Nat, (L : Int) < p + n + s ∧ (0 < L → b.rows = some R → start + R * L ≤ src.file.length → ∀ val : Nat → Nat → Value,
      (∀ (k : Nat) v, (slots p (.col first :: rest))[k]? = some v → v.attrs.scale = none ∧ v.attrs.offset = none ∧ ∀ r < R,
        Encodes src.cp500 v.attrs.dataType v.size (bytesAt src.file (start + r * L + v.off.toNat) v.size) (val r k)) →
      ∃ out, readTable src b start = .ok (some out) ∧ out.map Prod.fst = columnNames p (.col first :: rest) ∧
        ∀ (k : Nat) q, out[k]? = some q → Shows q.2 ((List.range R).map (fun r => val r k))) := by
  obtain ⟨L, h1, h2⟩ := C64_record_too_short b first rest h p n s hp hp0 hn hn0 hs hs0 hin
  refine ⟨L, h2, ?_⟩
  intro h3 h4 h5 val henc
  have := read_plain src hv b start R L first rest h h1 h3 (by rw [h4]; rfl) h5 val (by rw [hp]; exact henc)
  rw [hp] at this
  exact this

/-- a table with a prefix of 2 bytes, a value of 1 byte, and 1 byte to spare: records of 3 bytes instead of 4 -/
def spare : Block where
  name := c!"TABLE"
  rowBytes := some 2
  rowPrefix := some 2
  rows := some 2
  defs := [.column c!"A" 1 1 none none none { dataType := c!"MSB_UNSIGNED_INTEGER" }]

example : recordSize spare = some 3 := by decide

/-- **C65 (limit).** Without ROWS, one row is read. -/
theorem C65_no_rows (src : Source) (b : Block) (start : Nat) :
    readTable src { b with rows := none } start = readTable src { b with rows := some 1 } start := rfl

theorem parse_rows (b : Block) (r : Option Nat) : parseStructure { b with rows := r } = parseStructure b := rfl

/-- **C65 (limit).** If an uncompressed file ends before the table, the table is read as if it had as many rows as there
are whole records in the file: no error, no warning. -/
theorem C65_truncated (src : Source) (b : Block) (start R L : Nat) (hc : src.compressed = false) (hL : recordSize b = some L)
    (hlt : (src.file.length - start) / L ≤ R) :
    readTable src { b with rows := some R } start =
      readTable src { b with rows := some ((src.file.length - start) / L) } start := by
  unfold recordSize at hL
  unfold readTable
  simp only [parse_rows]
  cases hp : parseStructure b with
  | error e => rfl
  | ok q =>
    obtain ⟨rows, o⟩ := q
    cases o with
    | none => rfl
    | some c =>
      obtain ⟨cols, L'⟩ := c
      rw [hp] at hL
      cases hL
      have : readRecords src.compressed src.file start L R =
          readRecords src.compressed src.file start L ((src.file.length - start) / L) := by
        unfold readRecords
        rw [hc, List.length_drop, Nat.min_eq_right hlt, Nat.min_self]
        simp only [Bool.false_eq_true, if_false]
      simp only [Option.getD_some, this]

/-- **C65 (limit).** If a compressed file ends within a record of the table, nothing is read at all. -/
theorem C65_truncated_compressed (src : Source) (b : Block) (start R L : Nat) (hc : src.compressed = true)
    (hL : recordSize b = some L) (hR : b.rows = some R) (hlt : src.file.length - start < R * L)
    (hm : (src.file.length - start) % L ≠ 0) : readTable src b start = .error .valueError := by
  unfold recordSize at hL
  unfold readTable
  cases hp : parseStructure b with
  | error e => rw [hp] at hL; cases hL
  | ok q =>
    obtain ⟨rows, o⟩ := q
    cases o with
    | none => rw [hp] at hL; cases hL
    | some c =>
      obtain ⟨cols, L'⟩ := c
      rw [hp] at hL
      cases hL
      have : readRecords src.compressed src.file start L R = .error .valueError := by
        unfold readRecords
        rw [hc]
        simp only [if_true]
        split
        · rfl
        · rw [if_pos]
          rw [List.length_take, List.length_drop, Nat.min_eq_right (by omega)]
          exact hm
      simp only [hR, Option.getD_some, this]

/-- **C66 (limit).** One column of an ASCII type makes pdr take the whole table for text, whatever the other columns
are and whatever INTERCHANGE_FORMAT says; so does ASCII or SPREADSHEET in the name of the object. -/
theorem C66_taken_for_text (src : Source) (b : Block) (start : Nat) (rows : List Row)
    (hrows : computeOffsets (structureOf b) b.rowPrefix b.rowBytes b.rowSuffix = .ok rows)
    (h : (∃ r ∈ rows, c!"ASCII" <:+: r.fld.attrs.dataType) ∨ c!"ASCII" <:+: b.name ∨ c!"SPREADSHEET" <:+: b.name) :
    readTable src b start = .ok none := by
  have hasc : probablyAscii b rows = true := by
    unfold probablyAscii
    rcases h with ⟨r, hr, h⟩ | h | h
    · have : rows.any (fun r => contains r.fld.attrs.dataType c!"ASCII") = true :=
        List.any_eq_true.2 ⟨r, hr, (contains_iff _ _).2 h⟩
      rw [this]; rfl
    · rw [← contains_iff] at h; simp [h]
    · rw [← contains_iff] at h; simp [h]
  unfold readTable parseStructure
  rw [hrows]
  simp only [hasc, if_true]

/-- a binary table with a column of digits -/
def digits : Block where
  name := c!"TABLE"
  rowBytes := some 5
  rows := some 1
  interchange := some c!"BINARY"
  defs := [.column c!"A" 1 4 none none none { dataType := c!"IEEE_REAL" },
           .column c!"B" 5 1 none none none { dataType := c!"ASCII_INTEGER" }]

example (src : Source) : readTable src digits 0 = .ok none := by
  refine C66_taken_for_text src _ 0 _ rfl (Or.inl ⟨_, List.mem_cons_of_mem _ (List.mem_cons_self ..), ?_⟩)
  decide

theorem wrap_ne (t : IntType) (x : Int) (h : ¬ (lo t ≤ x ∧ x ≤ hi t)) (hb : 1 ≤ t.bits) : wrap t x ≠ x := by
  intro he
  have := wrap_range t hb x
  rw [he] at this
  exact h this

/-- **C67 (limit).** In integer columns, an integer SCALING_FACTOR is applied in the dtype of the column: a result that it
does not hold is replaced by another number, ... -/
theorem C67_wraps (R : Rounding double) (R' : Rounding single) (t : IntType) (hb : 1 ≤ t.bits) (vs : List Int) (n : Int)
    (hn : n ≠ 0) (hr : lo t ≤ n ∧ n ≤ hi t) :
    ∃ ws, scaleCol R R' (.ints t vs) (some (.int n)) none = .ok (.ints t ws) ∧
      List.Forall₂ (fun v w => (w - v * n) % 2 ^ t.bits = 0 ∧ lo t ≤ w ∧ w ≤ hi t ∧ (w = v * n ↔ lo t ≤ v * n ∧ v * n ≤ hi t)) vs ws := by
  refine ⟨vs.map (fun v => wrap t (v * n)), ?_, ?_⟩
  · simp only [scaleCol, applyNum]
    rw [if_neg (show ¬ (Num.int n).val = 0 from by simp only [Num.val]; exact_mod_cast hn)]
    simp only [arith]
    rw [if_pos hr]
  · rw [List.forall₂_map_right_iff, List.forall₂_same]
    intro v _
    have h1 := wrap_range t hb (v * n)
    refine ⟨?_, h1.1, h1.2, ?_⟩
    · unfold wrap
      have : ((v * n - lo t) % 2 ^ t.bits + lo t - v * n) = (v * n - lo t) % 2 ^ t.bits - (v * n - lo t) := by ring
      rw [this]
      simp [Int.emod_emod_of_dvd, Int.sub_emod]
    · constructor
      · intro he
        rw [he] at h1
        exact h1
      · intro he
        exact wrap_id t hb _ he.1 he.2

/-- ... a factor that the dtype does not hold is an OverflowError, ... -/
theorem C67_factor_too_large (R : Rounding double) (R' : Rounding single) (t : IntType) (vs : List Int) (n : Int)
    (hn : n ≠ 0) (hr : ¬ (lo t ≤ n ∧ n ≤ hi t)) (o : Option Num) :
    scaleCol R R' (.ints t vs) (some (.int n)) o = .error .overflowError := by
  simp only [scaleCol, applyNum]
  rw [if_neg (show ¬ (Num.int n).val = 0 from by simp only [Num.val]; exact_mod_cast hn)]
  simp only [arith]
  rw [if_neg hr]

/-- ... and a factor of 0 is left out. -/
theorem C67_zero (R : Rounding double) (R' : Rounding single) (c : Column) (n : Num) (hn : n.val = 0) (o : Option Num) :
    scaleCol R R' c (some n) o = scaleCol R R' c none o := by
  simp only [scaleCol, applyNum, hn, if_true]

theorem mapM_get {α β : Type} (f : α → Except PyErr β) (l : List α) (out : List β) (h : l.mapM f = .ok out) (k : Nat) (y : β)
    (hy : out[k]? = some y) : ∃ x, l[k]? = some x ∧ f x = .ok y := by
  induction l generalizing out k with
  | nil => cases h; simp at hy
  | cons a l ih =>
    rw [List.mapM_cons] at h
    cases ha : f a with
    | error e => rw [ha] at h; cases h
    | ok b =>
      cases hl : l.mapM f with
      | error e => rw [ha, hl] at h; cases h
      | ok bs =>
        rw [ha, hl] at h
        cases h
        cases k with
        | zero => exact ⟨a, rfl, by rw [ha]; exact congrArg Except.ok (Option.some.inj hy)⟩
        | succ k => exact ih bs hl k hy

theorem fl_ne_zero (R : Rounding double) (n : Num) (h : 1 ≤ |n.val|) : R.fl n.val ≠ 0 := by
  intro h0
  have hrep : ∀ i : Int, i = 1 ∨ i = -1 → Rep double (i : ℚ) := by
    intro i hi
    refine ⟨i, 0, ?_, by decide, by decide, by rw [zpow_zero, mul_one]⟩
    rcases hi with rfl | rfl <;> decide
  rcases le_abs.1 h with h | h
  · have := R.nearest n.val 1 (by simpa using hrep 1 (Or.inl rfl))
    rw [h0, abs_of_nonpos (by linarith : (0 : ℚ) - n.val ≤ 0), abs_of_nonpos (by linarith : (1 : ℚ) - n.val ≤ 0)] at this
    linarith
  · have := R.nearest n.val (-1) (by simpa using hrep (-1) (Or.inr rfl))
    rw [h0, abs_of_nonneg (by linarith : (0 : ℚ) ≤ 0 - n.val), abs_of_nonneg (by linarith : (0 : ℚ) ≤ -1 - n.val)] at this
    linarith

/-- **C67 (limit).** That goes for tables in which every column has an integer SCALING_FACTOR: as soon as one column has
none, or one that is not an integer, scaled integer columns become float64 columns. -/
theorem C67_mixed (src : Source) (hv : ReadsVax src.vax32) (b : Block) (start R L : Nat) (first : Col) (rest : List Format.Spec.Entry)
    (h : Binary b first rest L) (hR : b.rows = some R) (hfile : start + R * L ≤ src.file.length) (val : Nat → Nat → Value)
    (henc : ∀ (k : Nat) s, (slots (b.rowPrefix.getD 0) (.col first :: rest))[k]? = some s → ∀ r < R,
      Encodes src.cp500 s.attrs.dataType s.size (bytesAt src.file (start + r * L + s.off.toNat) s.size) (val r k))
    (hmix : ∃ s ∈ slots (b.rowPrefix.getD 0) (.col first :: rest), ∀ i, s.attrs.scale ≠ some (.int i))
    (out : List (Str × Column)) (hout : readTable src b start = .ok (some out)) (k : Nat) (s : Slot) (d : Dtype) (n : Num)
    (hs : (slots (b.rowPrefix.getD 0) (.col first :: rest))[k]? = some s) (hd : Means (underscored s.attrs.dataType) s.size d)
    (hk : d.kind = .int ∨ d.kind = .uint) (hb : s.attrs.dataType ≠ c!"BOOLEAN")
    (hnat : Native s.attrs.dataType) (hn : s.attrs.scale = some n)
    (hn1 : 1 ≤ |n.val|) (q : Str × Column) (hq : out[k]? = some q) : ∃ vs, q.2 = .floats .f64 vs := by
  obtain ⟨cols, sc, of, -, -, hfits, -, -, hmx, hread⟩ := read_unscaled src hv b start R L first rest h.toPlaced
    (recordSize_binary b first rest L h) h.size.1 (by rw [hR]; rfl) hfile val henc
  have hsc := hmx hmix
  rw [hout] at hread
  generalize columnNames (b.rowPrefix.getD 0) (.col first :: rest) = N at *
  cases hm : (N.zip (cols.zip (sc.zip of))).mapM (finish src) with
  | error e => rw [hm] at hread; cases hread
  | ok out' =>
    rw [hm] at hread
    cases hread
    obtain ⟨x, hx, hfin⟩ := mapM_get _ _ _ hm k q hq
    rw [List.getElem?_zip_eq_some, List.getElem?_zip_eq_some, List.getElem?_zip_eq_some] at hx
    obtain ⟨-, h2, h3, -⟩ := hx
    rw [hsc, List.map_map, List.getElem?_map, hs] at h3
    simp only [Option.map_some, Function.comp_apply, hn, Option.some.injEq] at h3
    have hf := hfits k _ s d h2 hs hb hnat hd
    have hc : ∃ t vs, x.2.1 = .ints t vs := by
      unfold Fits at hf
      rcases hk with hk | hk <;> rw [hk] at hf <;> obtain ⟨vs, hvs⟩ := hf <;> exact ⟨_, vs, hvs⟩
    obtain ⟨t, vs, hc⟩ := hc
    unfold finish scaleCol at hfin
    rw [hc, ← h3] at hfin
    simp only [applyNum] at hfin
    rw [if_neg (show ¬ (Num.float (src.R.fl n.val)).val = 0 from fl_ne_zero src.R n hn1)] at hfin
    simp only [arith] at hfin
    generalize vs.map (fun (v : Int) => fop src.R (· * ·) (src.R.fl n.val) (some (src.R.fl v))) = ws at hfin
    cases ho : x.2.2.2 with
    | none =>
      rw [ho] at hfin
      cases hfin
      exact ⟨_, rfl⟩
    | some o =>
      rw [ho] at hfin
      simp only at hfin
      split at hfin
      · cases hfin; exact ⟨_, rfl⟩
      · split at hfin
        · cases hfin; exact ⟨_, rfl⟩
        · cases hfin

/-- 100 * 3 in one signed byte is 44 -/
example (R : Rounding double) (R' : Rounding single) : scaleCol R R' (.ints ⟨true, 8⟩ [100]) (some (.int 3)) none = .ok (.ints ⟨true, 8⟩ [44]) := by
  simp [scaleCol, applyNum, arith, Num.val, lo, hi, wrap]

end Verif.Table
