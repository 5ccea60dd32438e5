/-
C54, C62: IBM and VAX reals in tables.
-/
import Verif.Props.BitTable

namespace Verif.Table
open Verif.Py Verif.Format Verif.Format.Spec Verif.Datatypes Verif.Datatypes.Spec Verif.Bits Verif.NumPy Verif.Scaling
  Verif.Float Verif.Table.Spec Verif.BitTable Verif.BitTable.Spec
open Verif.Ibm.Spec (ibmValue)

theorem ibm_column (src : Source) (recs : List Bytes) (c : TCol) (h : underscored c.fld.attrs.dataType = c!"IBM_REAL") :
    columnOf src recs c = ibmColumn src.R src.R' c.fld.bytes c.dt.size
      ((recs.map (fun r => (r.drop c.sb.toNat).take c.dt.size)).map (wordValue (c.dt.order.getD .little))) := by
  unfold columnOf
  simp only
  rw [if_pos]
  rw [Bool.and_eq_true, contains_iff, startsWith, List.isPrefixOf_iff_prefix, ← prefix_underscored _ _ (by decide),
    ← infix_underscored _ _ (by decide), h]
  decide

/-- **C54 (stored as).** A column of 4-byte IBM reals is stored as float32 if none is beyond the range of float32 or between
zero and 2^-146, and as float64 if one is beyond the range of float32 (then each value is exact). -/
theorem C54_stored_as (R : Rounding double) (R' : Rounding single) (ws : List Nat) (hne : ws ≠ []) (hws : ∀ w ∈ ws, w < 2 ^ 32) :
    ((∀ w ∈ ws, |ibmValue 32 w| ≤ largest single ∧ (ibmValue 32 w = 0 ∨ 2 ^ (-146 : Int) ≤ |ibmValue 32 w|)) →
      ∃ xs, ibmColumn R R' 4 4 ws = .ok (.floats .f32 xs)) ∧
    ((∃ w ∈ ws, largest single < |ibmValue 32 w|) →
      ibmColumn R R' 4 4 ws = .ok (.floats .f64 (ws.map (fun w => some (ibmValue 32 w))))) := by
  have key : ∀ a as, (ws.map (ibmValue 32)).map abs = a :: as → ibmColumn R R' 4 4 ws =
      if Ibm.wide R a as then .ok (.floats .f64 (ws.map (fun w => some (ibmValue 32 w))))
      else .ok (.floats .f32 (((ws.map (ibmValue 32)).map R'.fl).map some)) := by
    intro a as h
    unfold ibmColumn
    rw [if_pos rfl, if_neg (by decide)]
    unfold Ibm.convertShort
    simp only [Ibm.map_ibm32 R ws hws, h]
    by_cases hw : Ibm.wide R a as = true
    · rw [if_pos hw, if_pos hw]
      simp only [hw, if_true, List.map_map, Function.comp_def]
    · rw [if_neg hw, if_neg hw]
      simp only [hw, Bool.false_eq_true, if_false]
  cases h : (ws.map (ibmValue 32)).map abs with
  | nil =>
    cases ws with
    | nil => exact absurd rfl hne
    | cons => simp at h
  | cons a as =>
    rw [key a as h]
    have hmem : ∀ x, x ∈ a :: as ↔ ∃ w ∈ ws, |ibmValue 32 w| = x := by
      intro x
      rw [← h]
      simp
    constructor
    · intro hall
      rw [if_neg (Ibm.not_wide R a as (fun x hx => by
        obtain ⟨w, hw, rfl⟩ := (hmem x).1 hx
        refine ⟨(hall w hw).1, (hall w hw).2.imp (fun e => by rw [e, abs_zero]) id⟩))]
      exact ⟨_, rfl⟩
    · rintro ⟨w, hw, hlt⟩
      rw [if_pos (Ibm.is_wide R a as _ ((hmem _).2 ⟨w, hw, rfl⟩) hlt)]

/-- **C54 (items).** A table with a column of ITEMS that are 4-byte IBM reals cannot be read: pdr goes by the BYTES of the
column, and takes the items for 8-byte reals. (`s.total` is BYTES of the column, `s.size` the size of an item.) -/
theorem C54_items (ids : Ids) (src : Source) (b : Table.Block) (start : Nat) (first first' : Col)
    (rest rest' : List Format.Spec.Entry) (hdefs : b.defs = (Entry.col first :: rest).map Entry.toDef)
    (hread : List.Forall₂ (EntryReadAs ids) (.col first :: rest) (.col first' :: rest'))
    (h : Laid { b with defs := (Entry.col first' :: rest').map Entry.toDef } first' rest')
    (s : Slot) (hs : s ∈ slots (b.rowPrefix.getD 0) (.col first' :: rest')) (ht : underscored s.attrs.dataType = c!"IBM_REAL")
    (hsize : s.size = 4) (htotal : s.total ≠ 4) :
    ∀ out, readBitTable ids src b start ≠ .ok (some out) := by
  intro out hout
  obtain ⟨L, recs, _, _, h3⟩ := read_ok ids src b start _ first' rest' (by rw [hdefs, addBits_entries ids _ _ hread]) h out hout
  obtain ⟨c, col, bc, str, ⟨ha, hb⟩, h4, h5, h6, _⟩ := h3 s hs
  obtain ⟨str', h4', h5', _⟩ := C10_types_mean_what_they_say s.attrs.dataType s.size ⟨some .big, .uint, 4⟩ (by
    rw [ht, hsize]; exact .ibm (by decide))
  rw [h4] at h4'
  injection h4' with h4'
  subst h4'
  rw [h5] at h5'
  injection h5' with h5'
  rw [ibm_column src recs c (by rw [ha]; exact ht)] at h6
  unfold ibmColumn at h6
  rw [if_neg (by rw [hb]; exact htotal), h5', if_pos (by decide)] at h6
  cases h6

/-- **C54 (no rows).** A table with a column of 4-byte IBM reals cannot be read if there is no row to read: if its label
says ROWS = 0, or if its (uncompressed) file ends before the first row does. -/
theorem C54_empty_tables (ids : Ids) (src : Source) (b : Table.Block) (start L : Nat) (first first' : Col)
    (rest rest' : List Format.Spec.Entry) (hdefs : b.defs = (Entry.col first :: rest).map Entry.toDef)
    (hread : List.Forall₂ (EntryReadAs ids) (.col first :: rest) (.col first' :: rest'))
    (h : Laid { b with defs := (Entry.col first' :: rest').map Entry.toDef } first' rest')
    (hL : recordSize { b with defs := (Entry.col first' :: rest').map Entry.toDef } = some L) (hpos : 0 < L)
    (hrows : b.rows = some 0 ∨ src.compressed = false ∧ src.file.length < start + L)
    (s : Slot) (hs : s ∈ slots (b.rowPrefix.getD 0) (.col first' :: rest')) (ht : underscored s.attrs.dataType = c!"IBM_REAL")
    (htotal : s.total = 4) :
    ∀ out, readBitTable ids src b start ≠ .ok (some out) := by
  intro out hout
  obtain ⟨L', recs, h1, h2, h3⟩ := read_ok ids src b start _ first' rest' (by rw [hdefs, addBits_entries ids _ _ hread]) h out hout
  rw [hL] at h1
  injection h1 with h1
  subst h1
  have hrecs := no_records src b start L hpos hrows recs h2
  subst hrecs
  obtain ⟨c, col, bc, str, ⟨ha, hb⟩, _, _, h6, _⟩ := h3 s hs
  rw [ibm_column src [] c (by rw [ha]; exact ht)] at h6
  unfold ibmColumn at h6
  rw [if_pos (by rw [hb]; exact htotal)] at h6
  split at h6 <;> cases h6

/-! ### examples -/

/-- 1 and -118.625 are stored as float32 -/
example (R : Rounding double) (R' : Rounding single) : ∃ xs, ibmColumn R R' 4 4 [0x41100000, 0xC276A000] = .ok (.floats .f32 xs) := by
  refine (C54_stored_as R R' _ (by simp) (by decide)).1 (fun w hw => ?_)
  simp only [List.mem_cons, List.not_mem_nil, or_false] at hw
  rcases hw with rfl | rfl
  · exact ⟨by norm_num [ibmValue, largest, single], Or.inr (by norm_num [ibmValue])⟩
  · exact ⟨by norm_num [ibmValue, largest, single], Or.inr (by norm_num [ibmValue])⟩

/-- a column of IBM reals -/
def ibmFirst : Col where
  name := c!"A"
  start := 1
  bytes := 4
  attrs := { dataType := c!"IBM_REAL" }

/-- ... and one of VAX reals -/
def vaxLast : Col where
  name := c!"B"
  start := 5
  bytes := 4
  attrs := { dataType := c!"VAX_REAL" }

def realBlock : Block where
  name := c!"TABLE"
  rows := some 2
  rowBytes := some 8
  defs := (Entry.col ibmFirst :: [.col vaxLast]).map Entry.toDef

/-- -118.625 and 1; 0 and -1.5 -/
def realFile : Bytes := [0xC2, 0x76, 0xA0, 0x00, 0x80, 0x40, 0x00, 0x00, 0x00, 0x00, 0x00, 0x00, 0xC0, 0xC0, 0x00, 0x00]

theorem real_slots : slots 0 (.col ibmFirst :: [.col vaxLast]) =
    [⟨c!"A", 1, 0, 4, 4, { dataType := c!"IBM_REAL" }⟩, ⟨c!"B", 5, 4, 4, 4, { dataType := c!"VAX_REAL" }⟩] := rfl

theorem real_binary : Binary realBlock ibmFirst [.col vaxLast] 8 where
  regular := by
    refine ⟨⟨⟨by decide, (by intro h; cases h), by intro o h; cases h⟩, ?_⟩, by decide, trivial, ?_⟩
    · intro e he
      simp only [List.mem_cons, List.not_mem_nil, or_false] at he
      subst he
      exact ⟨by decide, (by intro h; cases h), (by intro o h; cases h)⟩
    · decide
  defs := rfl
  table := by intro t h; cases h
  binary := by decide
  types := by
    intro s hs
    rw [show realBlock.rowPrefix.getD 0 = 0 from rfl, real_slots] at hs
    simp only [List.mem_cons, List.not_mem_nil, or_false] at hs
    rcases hs with rfl | rfl
    · exact ⟨by decide, Or.inr ⟨rfl, by decide⟩, _, .ibm (by decide)⟩
    · exact ⟨by decide, Or.inr ⟨rfl, by decide⟩, _, .vax⟩
  names := by decide
  plain := by decide
  offsets := by decide
  size := by
    refine ⟨by decide, 8, rfl, by decide, by decide, by decide, by decide, [.col ibmFirst], _, rfl, rfl, Or.inl rfl⟩

/-- the hypotheses of C62 hold for the example -/
example (src : Source) (hv : ReadsVax src.vax32) (hsrc : src.file = realFile) :
    ∃ out, readTable src realBlock 0 = .ok (some out) ∧ out.map Prod.fst = [c!"A", c!"B"] ∧
      ∀ (k : Nat) q, out[k]? = some q → Shows q.2 [.real (if k = 0 then -118.625 else 1), .real (if k = 0 then 0 else -1.5)] := by
  have hibm : ∀ (bs : Bytes) (x : ℚ) (w : Nat), bs.length = 4 → number .big bs = w → ibmValue 32 w = x → (x = 0 ∨ 2 ^ (-126 : Int) ≤ |x|) →
      Encodes src.cp500 c!"IBM_REAL" 4 bs (.real x) := by
    intro bs x w h1 h2 h3 h4
    subst h2 h3
    exact .ibmShort rfl h1 h4
  have hvax : ∀ (bs : Bytes) (x : ℚ) (w : Nat), bs.length = 4 → number .little bs = w → VaxReal w x → Rep single x →
      Encodes src.cp500 c!"VAX_REAL" 4 bs (.real x) := by
    intro bs x w h1 h2 h3 h4
    subst h2
    exact .vax rfl h1 h3 h4
  refine C62_values src hv realBlock 0 2 8 ibmFirst [.col vaxLast] real_binary rfl (by rw [hsrc]; decide)
    (fun r k => if r = 0 then .real (if k = 0 then -118.625 else 1) else .real (if k = 0 then 0 else -1.5)) ?_
  intro k s hs
  rw [show realBlock.rowPrefix.getD 0 = 0 from rfl, real_slots] at hs
  rw [hsrc]
  have hk : k < 2 := by
    by_contra hc
    rw [List.getElem?_eq_none (by simpa using hc)] at hs
    cases hs
  have two : ∀ P : Nat → Prop, P 0 → P 1 → ∀ r < 2, P r := by
    intro P h0 h1 r hr
    rcases (by omega : r = 0 ∨ r = 1) with rfl | rfl
    · exact h0
    · exact h1
  rcases (by omega : k = 0 ∨ k = 1) with rfl | rfl
  · cases hs
    refine ⟨rfl, rfl, two _ (hibm _ (-118.625) 0xC276A000 rfl (by decide) (by norm_num [ibmValue]) (Or.inr (by norm_num)))
      (hibm _ 0 0 rfl (by decide) (by norm_num [ibmValue]) (Or.inl rfl))⟩
  · cases hs
    refine ⟨rfl, rfl, two _ (hvax _ 1 0x4080 rfl (by decide) ?_ ?_) (hvax _ (-1.5) 0xC0C0 rfl (by decide) ?_ ?_)⟩
    · have := VaxReal.real (w := 0x4080) (by decide)
      norm_num at this ⊢
      exact this
    · exact ⟨1, 0, by norm_num [single], by decide, by decide, by norm_num⟩
    · have := VaxReal.real (w := 0xC0C0) (by decide)
      norm_num at this ⊢
      exact this
    · exact ⟨-3, -1, by norm_num [single], by decide, by decide, by norm_num⟩

/-- two IBM reals as items -/
def ibmItems : Col where
  name := c!"A"
  start := 1
  bytes := 8
  items := some 2
  itemBytes := some 4
  attrs := { dataType := c!"IBM_REAL" }

def itemsBlock : Block where
  name := c!"TABLE"
  rows := some 1
  rowBytes := some 8
  defs := (Entry.col ibmItems :: []).map Entry.toDef

theorem items_laid : Laid { itemsBlock with defs := (Entry.col ibmItems :: []).map Entry.toDef } ibmItems [] where
  regular := by
    refine ⟨⟨⟨by decide, (fun _ => rfl), by intro o h; cases h⟩, ?_⟩, ?_, trivial, ?_⟩
    · intro e he; cases he
    · exact ⟨List.nodup_nil, fun n h => by cases h⟩
    · decide
  defs := rfl
  table := by intro t h; cases h
  plain := by decide
  offsets := by decide

/-- the hypotheses of C54_items hold for the example -/
example (src : Source) : ∀ out, readBitTable ⟨c!"X", false, false⟩ src itemsBlock 0 ≠ .ok (some out) :=
  C54_items ⟨c!"X", false, false⟩ src itemsBlock 0 ibmItems ibmItems [] [] rfl (.cons (.col ⟨_, .plain rfl, rfl⟩) .nil) items_laid
    ⟨c!"A", 1, 0, 4, 8, { dataType := c!"IBM_REAL" }⟩ (List.mem_cons_self ..) rfl rfl (by decide)

/-- ... and those of C54_empty_tables for the table above without rows -/
example (src : Source) : ∀ out, readBitTable ⟨c!"X", false, false⟩ src { realBlock with rows := some 0 } 0 ≠ .ok (some out) := by
  refine C54_empty_tables ⟨c!"X", false, false⟩ src { realBlock with rows := some 0 } 0 8 ibmFirst ibmFirst [.col vaxLast] [.col vaxLast] rfl
    (.cons (.col ⟨_, .plain rfl, rfl⟩) (.cons (.col ⟨_, .plain rfl, rfl⟩) .nil))
    { regular := real_binary.regular, defs := rfl, table := real_binary.table, plain := real_binary.plain, offsets := real_binary.offsets }
    ?_ (by decide) (Or.inl rfl) ⟨c!"A", 1, 0, 4, 4, { dataType := c!"IBM_REAL" }⟩ (List.mem_cons_self ..) rfl rfl
  exact recordSize_binary realBlock ibmFirst [.col vaxLast] 8 real_binary

end Verif.Table
