/-
Examples for C94 and C95.
-/
import Verif.Props.BitTable

namespace Verif.BitTable
open Verif.Py Verif.Format Verif.Format.Spec Verif.Datatypes Verif.Datatypes.Spec Verif.Bits Verif.Bits.Spec Verif.Table Verif.Table.Spec
open Verif.BitTable.Spec Verif.Float
open Verif.Scaling (Num)

/-- flags in two bytes: three bits, and two items of four bits -/
def exObj : BitObj where
  defs := [{ name := some c!"A", startBit := some 1, bits := some 3 }, { name := some c!"B", items := some 2, itemBits := some 4, startBit := some 5 }]
  bitType := some c!"LSB_UNSIGNED_INTEGER"

/-- the column of the flags, in the label -/
def bitFirst : Col where
  name := c!"FLAGS"
  start := 1
  bytes := 2
  attrs := { dataType := c!"UNSIGNED_INTEGER", bits := some exObj }

/-- … and as it is read -/
def bitFirst' : Col where
  name := c!"FLAGS"
  start := 1
  bytes := 2
  attrs := { dataType := c!"LSB_BIT_STRING", bits := some { exObj with lists := some ([some 1, some 5, some 9], [some 3, some 4, some 4]) } }

/-- a column of characters -/
def bitRest : List Format.Spec.Entry := [.col { name := c!"C", start := 3, bytes := 2, attrs := { dataType := c!"CHARACTER" } }]

/-- the label of the example -/
def bitBlock : Table.Block where
  name := c!"TABLE"
  rows := some 2
  rowBytes := some 4
  defs := (Entry.col bitFirst :: bitRest).map Entry.toDef

/-- two records -/
def bitFile : Bytes := [0x0F, 0xA1, 72, 0, 0x80, 0x01, 72, 73]

theorem ex_declares (ids : Ids) : List.Forall₂ (Declared ids) exObj.defs [[(1, 3)], [(5, 4), (9, 4)]] :=
  .cons (.plain (.plain (s := 1) (b := 3))) (.cons (.plain (.items (s := 5) (b := 4) (n := 2) (by decide))) .nil)

theorem ex_read : List.Forall₂ (EntryReadAs ⟨c!"X", false, false⟩) (.col bitFirst :: bitRest) (.col bitFirst' :: bitRest) := by
  refine .cons (.col ⟨bitFirst'.attrs, ?_, rfl⟩) (.cons (.col ⟨_, .plain rfl, rfl⟩) .nil)
  refine ReadAs.bits (a := bitFirst.attrs) (o := exObj) (t := c!"LSB_BIT_STRING") (fss := [[(1, 3)], [(5, 4), (9, 4)]]) rfl (by decide) (ex_declares _)
    (.little (u := c!"LSB_UNSIGNED_INTEGER") rfl (by decide) (by decide) rfl ⟨Or.inl (by decide), by decide⟩ (Or.inr (Or.inl (by decide)))) (Or.inl (by decide))

theorem bit_slots : slots 0 (.col bitFirst' :: bitRest) =
    [⟨c!"FLAGS", 1, 0, 2, 2, bitFirst'.attrs⟩, ⟨c!"C", 3, 2, 2, 2, { dataType := c!"CHARACTER" }⟩] := rfl

theorem bit_binary : Binary { bitBlock with defs := (Entry.col bitFirst' :: bitRest).map Entry.toDef } bitFirst' bitRest 4 where
  regular := by
    refine ⟨⟨⟨by decide, (fun h => by cases h), by intro o h; cases h⟩, ?_⟩, by decide, trivial, ?_⟩
    · intro e he
      simp only [bitRest, List.mem_cons, List.not_mem_nil, or_false] at he
      subst he
      exact ⟨by decide, (by intro h; cases h), (by intro o h; cases h)⟩
    · decide
  defs := rfl
  table := by intro t h; cases h
  binary := by decide
  types := by
    intro s hs
    rw [show (Table.Block.rowPrefix { bitBlock with defs := (Entry.col bitFirst' :: bitRest).map Entry.toDef }).getD 0 = 0 from rfl, bit_slots] at hs
    simp only [List.mem_cons, List.not_mem_nil, or_false] at hs
    have hcov : ∀ t, ¬ (c!"IBM" <+: t) → ¬ (c!"VAX" <+: t) → Native t := by
      rintro t h1 h2 ⟨h | h, _⟩
      · exact h1 h
      · exact h2 h
    rcases hs with rfl | rfl
    · exact ⟨by decide, Or.inl (hcov _ (by decide) (by decide)), _, .raw (by decide)⟩
    · exact ⟨by decide, Or.inl (hcov _ (by decide) (by decide)), _, .text (by decide)⟩
  names := by decide
  plain := by decide
  offsets := by decide
  size := by
    refine ⟨by decide, 4, rfl, by decide, by decide, by decide, by decide, [.col bitFirst'], _, rfl, rfl, Or.inl rfl⟩

/-- The hypotheses of C94 hold for the example: the flags are cut out of the two bytes in reverse, `10100001 00001111` and
`00000001 10000000`. -/
example (src : Source) (hv : ReadsVax src.vax32) (hsrc : src.file = bitFile) :
    ∃ out, readBitTable ⟨c!"X", false, false⟩ src bitBlock 0 = .ok (some out) ∧ out.map Prod.fst = [c!"FLAGS", c!"C"] ∧
      ∃ q, out[0]? = some q ∧ q.2 = .bits [[c!"101", c!"0001", c!"0000"], [c!"000", c!"0001", c!"1000"]] := by
  have hchr : ∀ (bs b : Bytes) (k : Nat), b.length + k = 2 → b.getLast? ≠ some 0 → bs = b ++ List.replicate k 0 →
      Encodes src.cp500 c!"CHARACTER" 2 bs (.bytes b) := by
    intro bs b k h1 h2 h3
    rw [h3]
    exact .plain (.text (by decide)) (by decide) (by decide) (by rintro ⟨h | h, _⟩ <;> exact absurd h (by decide)) (.chars h1 h2)
  obtain ⟨out, h1, h2, _, h4⟩ := C94_values ⟨c!"X", false, false⟩ src hv bitBlock 0 2 4 bitFirst bitFirst' bitRest bitRest rfl ex_read
    bit_binary rfl (fun _ => by decide) (by rw [hsrc]; decide) (fun r _ => if r = 0 then .bytes [72] else .bytes [72, 73]) (by
      intro k s hs hb
      rw [show bitBlock.rowPrefix.getD 0 = 0 from rfl, bit_slots] at hs
      match k with
      | 0 => simp only [List.getElem?_cons_zero, Option.some.injEq] at hs; subst hs; cases hb
      | 1 =>
        simp only [List.getElem?_cons_succ, List.getElem?_cons_zero, Option.some.injEq] at hs
        subst hs
        refine ⟨?_, Or.inl ⟨rfl, rfl⟩⟩
        intro r hr
        rw [hsrc]
        match r with
        | 0 => exact hchr _ [72] 1 rfl (by decide) (by decide)
        | 1 => exact hchr _ [72, 73] 0 rfl (by decide) (by decide)
        | r + 2 => omega
      | k + 2 => simp at hs) (by
      intro k s o hs ho
      rw [show bitBlock.rowPrefix.getD 0 = 0 from rfl, bit_slots] at hs
      match k with
      | 0 =>
        simp only [List.getElem?_cons_zero, Option.some.injEq] at hs
        subst hs
        refine ⟨by decide, rfl, rfl, by decide, ?_⟩
        intro fss hfss
        injection ho with ho
        rw [← ho] at hfss
        rw [declares_all_unique _ _ _ _ hfss (ex_declares _)]
        decide
      | 1 => simp only [List.getElem?_cons_succ, List.getElem?_cons_zero, Option.some.injEq] at hs; subst hs; cases ho
      | k + 2 => simp at hs)
  have hn : columnNames (bitBlock.rowPrefix.getD 0) (.col bitFirst' :: bitRest) = [c!"FLAGS", c!"C"] := by decide
  rw [hn] at h2
  refine ⟨out, h1, h2, ?_⟩
  cases out with
  | nil => cases h2
  | cons q out =>
    refine ⟨q, rfl, ?_⟩
    rw [h4 0 q ⟨c!"FLAGS", 1, 0, 2, 2, bitFirst'.attrs⟩ _ [[(1, 3)], [(5, 4), (9, 4)]] rfl (by rw [show bitBlock.rowPrefix.getD 0 = 0 from rfl, bit_slots]; rfl) rfl (ex_declares _), hsrc]
    congr 1

/-- the hypotheses of C95_no_rows hold for the example with ROWS = 0 -/
example (src : Source) : ∀ out, readBitTable ⟨c!"X", false, false⟩ src { bitBlock with rows := some 0 } 0 ≠ .ok (some out) := by
  refine C95_no_rows ⟨c!"X", false, false⟩ src { bitBlock with rows := some 0 } 0 4 bitFirst bitFirst' bitRest bitRest rfl ex_read ?_ (Or.inl rfl)
    ⟨⟨c!"FLAGS", 1, 0, 2, 2, bitFirst'.attrs⟩, List.mem_cons_self .., by decide⟩
  refine {
    toPlaced := { toLaid := { regular := bit_binary.regular, defs := rfl, table := bit_binary.table, plain := bit_binary.plain, offsets := bit_binary.offsets },
                  binary := bit_binary.binary, types := ?_, names := bit_binary.names },
    size := bit_binary.size }
  intro s hs
  obtain ⟨h1, _, h3⟩ := bit_binary.types s hs
  refine ⟨h1, Or.inl ?_, h3⟩
  change s ∈ slots 0 (.col bitFirst' :: bitRest) at hs
  rw [bit_slots] at hs
  simp only [List.mem_cons, List.not_mem_nil, or_false] at hs
  rcases hs with rfl | rfl <;> rintro ⟨h | h, _⟩ <;> exact absurd h (by decide)

/-- with unsigned integers in the label, it makes no difference whether they are LSB or MSB -/
example (src : Source) (b : Table.Block) :
    readBitTable ⟨c!"X", false, false⟩ src { b with defs := [.column c!"FLAGS" 1 2 none none none { dataType := c!"LSB_UNSIGNED_INTEGER", bits := some exObj }] } 0 =
    readBitTable ⟨c!"X", false, false⟩ src { b with defs := [.column c!"FLAGS" 1 2 none none none { dataType := c!"MSB_UNSIGNED_INTEGER", bits := some exObj }] } 0 :=
  C95_data_type_ignored _ src b 0 [] [] _ _ _ _ _ _ { bits := some exObj } exObj _ _ c!"LSB_UNSIGNED_INTEGER" rfl rfl ⟨Or.inl (by decide), by decide⟩
    (by decide) (by decide)

/-- the flags of a bit string type, in a column of another type -/
def otherObj : BitObj := { exObj with bitType := some c!"MSB_BIT_STRING" }

/-- the example with other flags -/
def otherBlock (t : Str) : Table.Block where
  name := c!"TABLE"
  rows := some 2
  rowBytes := some 4
  defs := (Entry.col { bitFirst with attrs := { dataType := t, bits := some otherObj } } :: bitRest).map Entry.toDef

/-- the flags as they are read -/
def otherFirst (t : Str) : Col :=
  { bitFirst with attrs := { dataType := t, bits := some { otherObj with lists := some ([some 1, some 5, some 9], [some 3, some 4, some 4]) } } }

theorem other_laid (t : Str) : Laid { otherBlock t with defs := (Entry.col (otherFirst t) :: bitRest).map Entry.toDef } (otherFirst t) bitRest where
  regular := by
    refine ⟨⟨⟨by show bitFirst.name ≠ _; decide, (fun h => by cases h), by intro o h; cases h⟩, ?_⟩, bit_binary.regular.names, trivial, ?_⟩
    · exact bit_binary.regular.1.2
    · exact bit_binary.regular.sorted
  defs := rfl
  table := by intro t h; cases h
  plain := bit_binary.plain
  offsets := by
    intro s hs
    have : slots 0 (.col (otherFirst t) :: bitRest) =
      [⟨c!"FLAGS", 1, 0, 2, 2, (otherFirst t).attrs⟩, ⟨c!"C", 3, 2, 2, 2, { dataType := c!"CHARACTER" }⟩] := rfl
    rw [show (Table.Block.rowPrefix { otherBlock t with defs := (Entry.col (otherFirst t) :: bitRest).map Entry.toDef }).getD 0 = 0 from rfl, this] at hs
    simp only [List.mem_cons, List.not_mem_nil, or_false] at hs
    rcases hs with rfl | rfl <;> simp

/-- columns of type BIT_STRING cannot be read -/
example (src : Source) : ∀ out, readBitTable ⟨c!"X", false, false⟩ src (otherBlock c!"BIT_STRING") 0 ≠ .ok (some out) := by
  refine C95_other_bit_strings ⟨c!"X", false, false⟩ src (otherBlock c!"BIT_STRING") 0 _ (otherFirst c!"BIT_STRING") _ bitRest rfl ?_
    (other_laid c!"BIT_STRING") ⟨c!"FLAGS", 1, 0, 2, 2, (otherFirst c!"BIT_STRING").attrs⟩ (List.mem_cons_self ..) (by decide) (by decide) (by decide)
  refine .cons (.col ⟨(otherFirst c!"BIT_STRING").attrs, ?_, rfl⟩) (.cons (.col ⟨_, .plain rfl, rfl⟩) .nil)
  exact ReadAs.bits (o := otherObj) (t := c!"BIT_STRING") (fss := [[(1, 3)], [(5, 4), (9, 4)]]) rfl (by decide) (ex_declares _)
    (.stated rfl (by decide)) (Or.inl (by decide))

/-- columns of numbers with bit strings in them cannot be read -/
example (src : Source) : ∀ out, readBitTable ⟨c!"X", false, false⟩ src (otherBlock c!"MSB_UNSIGNED_INTEGER") 0 ≠ .ok (some out) := by
  refine C95_numbers ⟨c!"X", false, false⟩ src (otherBlock c!"MSB_UNSIGNED_INTEGER") 0 _ (otherFirst c!"MSB_UNSIGNED_INTEGER") _ bitRest rfl ?_
    (other_laid c!"MSB_UNSIGNED_INTEGER") ⟨c!"FLAGS", 1, 0, 2, 2, (otherFirst c!"MSB_UNSIGNED_INTEGER").attrs⟩ (List.mem_cons_self ..) (by decide)
    ⟨some .big, .uint, 2⟩ (.integer ⟨Or.inl (by decide), by decide⟩ (by decide)
        (by constructor
            · intro h; cases h
            · rintro (h | h | h) <;> exact absurd h (by decide)) (Or.inr rfl)
        (by constructor
            · intro _; decide
            · intro _; rfl)) (Or.inr (Or.inl rfl))
  refine .cons (.col ⟨(otherFirst c!"MSB_UNSIGNED_INTEGER").attrs, ?_, rfl⟩) (.cons (.col ⟨_, .plain rfl, rfl⟩) .nil)
  exact ReadAs.bits (o := otherObj) (t := c!"MSB_UNSIGNED_INTEGER") (fss := [[(1, 3)], [(5, 4), (9, 4)]]) rfl (by decide) (ex_declares _)
    (.kept (u := c!"MSB_BIT_STRING") rfl (by decide) (by decide) rfl (by decide)) (Or.inl (by decide))

/-- bit strings with a SCALING_FACTOR -/
def scaledFirst (n : Num) : Col :=
  { bitFirst with attrs := { dataType := c!"MSB_BIT_STRING", scale := some n, bits := some otherObj } }

/-- … as they are read -/
def scaledFirst' (n : Num) : Col :=
  { bitFirst with attrs := { dataType := c!"MSB_BIT_STRING", scale := some n,
                             bits := some { otherObj with lists := some ([some 1, some 5, some 9], [some 3, some 4, some 4]) } } }

/-- a table of them -/
def scaledBlock (n : Num) : Table.Block where
  name := c!"TABLE"
  rows := some 2
  rowBytes := some 2
  defs := (Entry.col (scaledFirst n) :: []).map Entry.toDef

theorem scaled_laid (n : Num) : Laid { scaledBlock n with defs := (Entry.col (scaledFirst' n) :: []).map Entry.toDef } (scaledFirst' n) [] where
  regular := by
    refine ⟨⟨⟨by show bitFirst.name ≠ _; decide, (fun h => by cases h), by intro o h; cases h⟩, ?_⟩, ?_, trivial, ?_⟩
    · intro e he; cases he
    · exact ⟨List.nodup_nil, fun n h => by cases h⟩
    · exact List.Pairwise.nil
  defs := rfl
  table := by intro t h; cases h
  plain := by
    show ∀ n ∈ ([bitFirst.name] : List Str), ¬ c!"PLACEHOLDER" <:+: n
    decide
  offsets := by
    intro s hs
    have : slots 0 [.col (scaledFirst' n)] = [⟨c!"FLAGS", 1, 0, 2, 2, (scaledFirst' n).attrs⟩] := rfl
    rw [show (Table.Block.rowPrefix { scaledBlock n with defs := (Entry.col (scaledFirst' n) :: []).map Entry.toDef }).getD 0 = 0 from rfl, this] at hs
    simp only [List.mem_cons, List.not_mem_nil, or_false] at hs
    subst hs
    simp

theorem scaled_read (n : Num) : List.Forall₂ (EntryReadAs ⟨c!"X", false, false⟩) [.col (scaledFirst n)] [.col (scaledFirst' n)] := by
  refine .cons (.col ⟨(scaledFirst' n).attrs, ?_, rfl⟩) .nil
  exact ReadAs.bits (o := otherObj) (t := c!"MSB_BIT_STRING") (fss := [[(1, 3)], [(5, 4), (9, 4)]]) rfl (by decide) (ex_declares _)
    (.stated rfl (by show c!"BIT_STRING" <:+: underscored c!"MSB_BIT_STRING"; decide)) (Or.inl (by decide))

/-- with the factor 1/2, they cannot be read -/
example (src : Source) : ∀ out, readBitTable ⟨c!"X", false, false⟩ src (scaledBlock (.float (1/2))) 0 ≠ .ok (some out) :=
  C95_scaled ⟨c!"X", false, false⟩ src (scaledBlock (.float (1/2))) 0 _ _ [] [] rfl (scaled_read _) (scaled_laid _)
    ⟨c!"FLAGS", 1, 0, 2, 2, (scaledFirst' (.float (1/2))).attrs⟩ (List.mem_cons_self ..) (by intro h; cases h) (1/2) (by norm_num)
    ⟨1, -1, by norm_num [double], by decide, by decide, by norm_num⟩ (Or.inl rfl)

/-- the field of the example below -/
def repField : Fld := { name := c!"FLAGS", startByte := 1, bytes := 2, attrs := (scaledFirst' (.int 2)).attrs }

/-- its label, as it is read -/
def repBlock : Table.Block where
  name := c!"TABLE"
  rows := some 2
  rowBytes := some 2
  defs := [Entry.col (scaledFirst' (.int 2))].map Entry.toDef

theorem rep_parse : parseStructure repBlock = .ok ([⟨repField, 0⟩], some ([⟨repField, 0, ⟨none, .void, 2⟩⟩], 2)) := by
  have h1 : structureOf repBlock = [repField] := by
    with_unfolding_all rfl
  have h2 : computeOffsets [repField] repBlock.rowPrefix repBlock.rowBytes repBlock.rowSuffix = .ok [⟨repField, 0⟩] := by
    with_unfolding_all rfl
  have h3 : typed ⟨repField, 0⟩ = .ok ⟨repField, 0, ⟨none, .void, 2⟩⟩ := by
    with_unfolding_all rfl
  have h4 : probablyAscii repBlock [⟨repField, 0⟩] = false := by
    with_unfolding_all rfl
  have h5 : structDtype [⟨repField, 0, ⟨none, .void, 2⟩⟩] = .ok 2 := by
    with_unfolding_all rfl
  unfold parseStructure
  rw [h1, h2]
  simp only [h4, Bool.false_eq_true, if_false]
  rw [show List.mapM typed [⟨repField, 0⟩] = .ok [⟨repField, 0, ⟨none, .void, 2⟩⟩] from mapM_cons_of _ _ _ _ _ h3 rfl]
  simp only [h5]

/-- with the factor 2, they can, but all is there twice (as C95_repeated says) -/
theorem rep_read (R : Rounding double) (R' : Rounding single) (cp : UInt8 → Char) (vax : Nat → Option ℚ) :
    readBitTable ⟨c!"X", false, false⟩ ⟨false, [0xA1, 0x0F, 0x01, 0x80], cp, vax, R, R'⟩ (scaledBlock (.int 2)) 0 =
      .ok (some [(c!"FLAGS", .bits [[c!"101", c!"0001", c!"0000", c!"101", c!"0001", c!"0000"],
                                   [c!"000", c!"0001", c!"1000", c!"000", c!"0001", c!"1000"]])]) := by
  have h1 : addBitsAll ⟨c!"X", false, false⟩ (scaledBlock (.int 2)).defs = .ok ([Entry.col (scaledFirst' (.int 2))].map Entry.toDef) := rfl
  have h6 : columnOf ⟨false, [0xA1, 0x0F, 0x01, 0x80], cp, vax, R, R'⟩ [[0xA1, 0x0F], [0x01, 0x80]] ⟨repField, 0, ⟨none, .void, 2⟩⟩ = .ok (.bytes [[0xA1, 0x0F], [0x01, 0x80]]) := by
    with_unfolding_all rfl
  have h7 : expandBits repField.attrs (.bytes [[0xA1, 0x0F], [0x01, 0x80]]) =
      .ok (.bits [[c!"101", c!"0001", c!"0000"], [c!"000", c!"0001", c!"1000"]]) := by
    with_unfolding_all rfl
  have h8 : readRecords false [0xA1, 0x0F, 0x01, 0x80] 0 2 2 = .ok [[0xA1, 0x0F], [0x01, 0x80]] := rfl
  unfold readBitTable
  rw [h1]
  simp only
  rw [show ({ name := (scaledBlock (.int 2)).name, tableName := (scaledBlock (.int 2)).tableName, bytes := (scaledBlock (.int 2)).bytes,
              rows := (scaledBlock (.int 2)).rows, rowBytes := (scaledBlock (.int 2)).rowBytes, rowPrefix := (scaledBlock (.int 2)).rowPrefix,
              rowSuffix := (scaledBlock (.int 2)).rowSuffix, interchange := (scaledBlock (.int 2)).interchange,
              defs := [Entry.col (scaledFirst' (.int 2))].map Entry.toDef } : Table.Block) = repBlock from rfl, rep_parse,
    show (scaledBlock (.int 2)).rows.getD 1 = 2 from rfl]
  simp only
  rw [h8]
  simp only
  rw [show List.mapM (columnOf ⟨false, [0xA1, 0x0F, 0x01, 0x80], cp, vax, R, R'⟩ [[0xA1, 0x0F], [0x01, 0x80]]) [⟨repField, 0, ⟨none, .void, 2⟩⟩] =
    .ok [.bytes [[0xA1, 0x0F], [0x01, 0x80]]] from mapM_cons_of _ _ _ _ _ h6 rfl]
  simp only
  rw [show List.mapM (fun p : TCol × Column => expandBits p.1.fld.attrs p.2)
      ([⟨repField, 0, ⟨none, .void, 2⟩⟩].zip [.bytes [[0xA1, 0x0F], [0x01, 0x80]]]) =
    .ok [.bits [[c!"101", c!"0001", c!"0000"], [c!"000", c!"0001", c!"1000"]]] from mapM_cons_of _ _ _ _ _ h7 rfl]
  rfl

/-- the hypotheses of C95_repeated hold for the example -/
example (R : Rounding double) (R' : Rounding single) (cp : UInt8 → Char) (vax : Nat → Option ℚ) :
    ∃ name vs, (name, BColumn.bits vs) ∈ [(c!"FLAGS", BColumn.bits [[c!"101", c!"0001", c!"0000", c!"101", c!"0001", c!"0000"],
                                   [c!"000", c!"0001", c!"1000", c!"000", c!"0001", c!"1000"]])] ∧
      ∀ v ∈ vs, ∃ w, w.length = 3 ∧ v = (List.replicate 2 w).flatten :=
  C95_repeated ⟨c!"X", false, false⟩ ⟨false, [0xA1, 0x0F, 0x01, 0x80], cp, vax, R, R'⟩ (scaledBlock (.int 2)) 0 _ _ [] [] rfl (scaled_read _) (scaled_laid _)
    ⟨c!"FLAGS", 1, 0, 2, 2, (scaledFirst' (.int 2)).attrs⟩ (List.mem_cons_self ..) otherObj.defs otherObj.bitType [(1, 3), (5, 4), (9, 4)] rfl 2 (by decide)
    ⟨2, 0, by norm_num [double], by decide, by decide, by norm_num⟩ rfl rfl _ (rep_read R R' cp vax)

end Verif.BitTable
