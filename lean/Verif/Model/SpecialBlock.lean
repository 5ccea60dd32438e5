/-
Model of the corrections of definitions: `check_special_block` (`pdr/formats/checkers.py` 804-1019), which decides when an
object's definition is taken from elsewhere or changed before it is used, and the functions it calls. The definitions that
`metablock_` hands out are the ones in the metadata (pdr.py 153-182, 1226-1233): what is changed in them stays changed.
-/
import Verif.Model.Special
import Verif.Model.Pvl

namespace Verif.Special
open Verif.Py Verif.Locate

/-- An object's definition: a `MultiDict`. Simplification: no real numbers (msl_edr.py 93-94 writes 0.0, here 0). -/
abbrev Block := Pvl.MDict Val

/-- a text value -/
def txt (s : Str) : Pvl.Tree Val := .leaf (.str s)

/-- a number -/
def num (n : Int) : Pvl.Tree Val := .leaf (.int n)

/-- `block[k]`: the first value -/
def getKey : Block → Str → Except PyErr (Pvl.Tree Val)
  | [], _ => .error .keyError
  | (k', v) :: rest, k => if k' = k then .ok v else getKey rest k

/-- `k in block` -/
def hasKey (b : Block) (k : Str) : Bool := b.any (fun e => e.1 == k)

/-- `block[k] = v`: in place of the first value; other values of `k` go -/
def setKey : Block → Str → Pvl.Tree Val → Block
  | [], k, v => [(k, v)]
  | (k', x) :: rest, k, v => if k' = k then (k, v) :: rest.filter (fun e => e.1 != k) else (k', x) :: setKey rest k v

/-- `block.add(k, v)` -/
def addKey (b : Block) (k : Str) (v : Pvl.Tree Val) : Block := b ++ [(k, v)]

/-- `del block[k]`: every value of `k` -/
def delKey (b : Block) (k : Str) : Block := b.filter (fun e => e.1 != k)

/-- several `block[k] = v` in a row -/
def setAll (b : Block) (kvs : List (Str × Pvl.Tree Val)) : Block := kvs.foldl (fun b e => setKey b e.1 e.2) b

/-- change a nested mapping in place; anything else has no items to set -/
def inNode (f : Block → Except PyErr Block) : Pvl.Tree Val → Except PyErr (Pvl.Tree Val)
  | .leaf _ => .error .typeError
  | .node kids => (f kids).map Pvl.Tree.node

/-- change `block.getall(k)[n]` (with `n = 0`: `block[k]`) in place. Simplification: too few values raise KeyError (the code
raises IndexError unless there is none). -/
def editNth (k : Str) (n : Nat) (f : Block → Except PyErr Block) : Block → Except PyErr Block
  | [] => .error .keyError
  | (k', x) :: rest =>
    if k' = k then
      match n with
      | 0 => (inNode f x).map (fun x => (k', x) :: rest)
      | m + 1 => (editNth k m f rest).map (fun r => (k', x) :: r)
    else (editNth k n f rest).map (fun r => (k', x) :: r)

/-- `"COLUMN" in item`, where `item` is a pair of key and value -/
def isColumn (e : Str × Pvl.Tree Val) : Bool :=
  e.1 == c!"COLUMN" || (match e.2 with | .leaf (.str s) => s == c!"COLUMN" | _ => false)

/-- `for item in block.items(): if "COLUMN" in item: ...` -/
def onColumns (f : Block → Except PyErr Block) : Block → Except PyErr Block
  | [] => .ok []
  | (k, x) :: rest =>
    if isColumn (k, x) then
      match inNode f x with
      | .error e => .error e
      | .ok x' => (onColumns f rest).map (fun r => (k, x') :: r)
    else (onColumns f rest).map (fun r => (k, x) :: r)

/-- `block[k] == v` -/
def valueIs (b : Block) (k : Str) (v : Val) : Except PyErr Bool :=
  match getKey b k with
  | .error e => .error e
  | .ok (.leaf w) => .ok (w == v)
  | .ok (.node _) => .ok false

/-- `s in block[k]`: in a text or among the keys of a mapping -/
def valueHas (b : Block) (k s : Str) : Except PyErr Bool :=
  match getKey b k with
  | .error e => .error e
  | .ok (.leaf (.str t)) => .ok (contains t s)
  | .ok (.leaf _) => .error .typeError
  | .ok (.node kids) => .ok (hasKey kids s)

/-- `if cond: block = f(block)`, where the condition may raise -/
def onlyIf (c : Except PyErr Bool) (b b' : Block) : Except PyErr Block :=
  match c with
  | .error e => .error e
  | .ok true => .ok b'
  | .ok false => .ok b

/-- `f` and then `g` -/
def andNext (f g : Block → Except PyErr Block) (b : Block) : Except PyErr Block :=
  match f b with
  | .error e => .error e
  | .ok b' => g b'

/-! ### the corrections -/

/-- what the corrections read besides the definition and the identifiers. `objects`: the objects of the product; `orbit`:
ORBIT_NUMBER; `imageFile`: `metaget_("^IMAGE")[0]`; `pointer`, `fileSize`: the object's pointer and the size of the product's
file; `sigma`, `grid`, `series`, `trajectory`: the definitions written out in kaguya.py 122-236, 253-292, 311-448, 464-583. -/
structure Around where
  objects : List Str := []
  orbit : Val := .none
  imageFile : Except PyErr Str := .error .typeError
  pointer : Target := .item (.val .none)
  fileSize : Nat := 0
  sigma : Block := []
  grid : Block := []
  series : Block := []
  trajectory : Block := []

/-- `metaget_` of what the identifiers also hold: None instead of `""` -/
def gotten (v : Val) : Val := if v = .str [] then .none else v

/-- galileo.py 127-153 `pws_special_block` -/
def pwsFix (i : Ids) (b : Block) : Except PyErr Block :=
  let b := if contains i.product c!"B.TAB" then setKey b c!"ROW_BYTES" (num 366) else b
  .ok (if contains i.product c!"E.TAB" then setKey b c!"ROW_BYTES" (num 516) else b)

/-- galileo.py 242-261 `ssi_prefix_block`, one column -/
def ssiColumn (c : Block) : Except PyErr Block :=
  match valueIs c c!"NAME" (.str c!"COMPRESSION_RATIO") with
  | .error e => .error e
  | .ok false => .ok c
  | .ok true => onlyIf (valueHas c c!"DATA_TYPE" c!"ASCII") c (setKey c c!"DATA_TYPE" (txt c!"CHARACTER"))

/-- ulysses.py 60-64, the first product -/
def pstlFix : Block → Except PyErr Block :=
  editNth c!"CONTAINER" 0 (editNth c!"COLUMN" 0 (fun c =>
    .ok (setAll c [(c!"ITEM_BYTES", num 13), (c!"START_BYTE", num 1)])))

/-- ulysses.py 65-68, the other product -/
def allChanFix : Block → Except PyErr Block :=
  andNext
    (editNth c!"CONTAINER" 0 (editNth c!"COLUMN" 0 (fun c => .ok (setKey c c!"START_BYTE" (num 1)))))
    (editNth c!"CONTAINER" 1 (editNth c!"CONTAINER" 0 (fun c =>
      editNth c!"COLUMN" 0 (fun d => .ok (setKey d c!"START_BYTE" (num 1))) (setKey c c!"START_BYTE" (num 1)))))

/-- ulysses.py 46-69 `get_special_block` -/
def ulyssesFix (i : Ids) (b : Block) : Except PyErr Block :=
  if contains i.dataSet c!"ULY-J-EPAC-4-SUMM-PSTL" then pstlFix b
  else if contains i.dataSet c!"ULY-J-EPAC-4-SUMM-ALL-CHAN" then allChanFix b
  else .ok b

/-- voyager.py 77-109 `pra_special_block`, one column of the Saturn, Uranus and Neptune labels -/
def sweepColumn (c : Block) : Except PyErr Block :=
  onlyIf (valueHas c c!"NAME" c!"SWEEP") c (setKey (addKey c c!"ITEM_BYTES" (num 4)) c!"BYTES" (num 284))

/-- voyager.py 102-108, one column of the Jupiter labels -/
def jupiterColumn (c : Block) : Except PyErr Block :=
  andNext (fun c => onlyIf (valueIs c c!"NAME" (.str c!"STATUS_WORD")) c (setKey c c!"START_BYTE" (num 1)))
    (fun c => onlyIf (valueIs c c!"NAME" (.str c!"DATA_CHANNELS")) c (setKey c c!"START_BYTE" (num 5))) c

/-- voyager.py 90-96: the data sets whose SWEEP columns are changed -/
def praOuter : List Str :=
  [c!"VG2-S-PRA-3-RDR-LOWBAND-6SEC-V1.0", c!"VG2-N-PRA-3-RDR-LOWBAND-6SEC-V1.0", c!"VG2-U-PRA-3-RDR-LOWBAND-6SEC-V1.0"]

/-- voyager.py 77-109 `pra_special_block` -/
def praFix (i : Ids) (b : Block) : Except PyErr Block :=
  if praOuter.contains i.dataSet then onColumns sweepColumn b
  else if i.dataSet = c!"VG2-J-PRA-3-RDR-LOWBAND-6SEC-V1.0" then editNth c!"CONTAINER" 0 (onColumns jupiterColumn) b
  else .ok b

/-- ihw.py 57-74 `get_special_block`, one column -/
def radarColumn (c : Block) : Except PyErr Block :=
  let named (n : Int) (s : Str) (c : Block) : Except PyErr Block :=
    match valueIs c c!"START_BYTE" (.int n) with
    | .error e => .error e
    | .ok hit => .ok (if hit && !hasKey c c!"NAME" then addKey c c!"NAME" (txt s) else c)
  andNext (named 17 c!">=1SEC") (named 21 c!">=8SEC") c

/-- `c["START_BYTE"] -= n` -/
def moveBack (c : Block) (n : Int) : Except PyErr Block :=
  match getKey c c!"START_BYTE" with
  | .error e => .error e
  | .ok (.leaf (.int s)) => .ok (setKey c c!"START_BYTE" (num (s - n)))
  | .ok _ => .error .typeError

/-- move the column of that number back -/
def moveNumbered (number back : Int) (c : Block) : Except PyErr Block :=
  match valueIs c c!"COLUMN_NUMBER" (.int number) with
  | .error e => .error e
  | .ok false => .ok c
  | .ok true => moveBack c back

/-- phoenix.py 124-141 `wcl_edr_special_block`, one column -/
def wclColumn : Block → Except PyErr Block := andNext (moveNumbered 13 1) (moveNumbered 14 2)

/-- mex.py 63-94, one column -/
def pfsColumn (c : Block) : Except PyErr Block :=
  andNext (fun c => onlyIf (valueIs c c!"NAME" (.str c!"OBT OBSERVATION TIME")) c (setKey c c!"DATA_TYPE" (txt c!"PC_REAL")))
    (fun c => onlyIf (valueIs c c!"NAME" (.str c!"SCET OBSERVATION TIME")) c
      (setKey c c!"DATA_TYPE" (txt c!"PC_UNSIGNED_INTEGER"))) c

/-- mex.py 63-94 `pfs_edr_special_block`: `orbit_number == "N/A" or int(orbit_number) < 8945` -/
def pfsEarly (orbit : Val) : Except PyErr Bool :=
  match orbit with
  | .str s => if s = c!"N/A" then .ok true else match Literal.pyInt s 10 with
    | some n => .ok (decide (n < 8945))
    | none => .error .valueError
  | .int n => .ok (decide (n < 8945))
  | .none => .error .typeError

/-- mex.py 63-94 `pfs_edr_special_block` -/
def pfsFix (i : Ids) (a : Around) (b : Block) : Except PyErr Block :=
  match pfsEarly a.orbit with
  | .error e => .error e
  | .ok false => .ok b
  | .ok true => onColumns pfsColumn (setKey b c!"ROWS" (.leaf (gotten i.fileRecords)))

/-- ground.py 18-37 `wff_atm_special_block` -/
def wffFix (i : Ids) (b : Block) : Except PyErr Block :=
  if startsWith i.product c!"S" then
    match getKey b c!"LINES" with
    | .error e => .error e
    | .ok l => match getKey b c!"LINE_SAMPLES" with
      | .error e => .error e
      | .ok s => .ok (setKey (setKey b c!"LINES" s) c!"LINE_SAMPLES" l)
  else .ok b

/-- `s.split("/")[-1]` -/
def lastPart (s : Str) : Str := (splitOn '/' s).getLast?.getD []

/-- cassini.py 270-289: only the last part of a path -/
def basename (k : Str) (b : Block) : Except PyErr Block :=
  match getKey b k with
  | .error e => .error e
  | .ok (.leaf (.str s)) => .ok (if contains s c!"/" then setKey b k (txt (lastPart s)) else b)
  | .ok (.leaf _) => .error .typeError
  | .ok (.node kids) => if hasKey kids c!"/" then .error .attributeError else .ok b

/-- the keys of a definition that say where and how long a table is -/
def blkOf (b : Block) : Blk :=
  let at' (k : Str) : Option Val := match getKey b k with
    | .ok (.leaf v) => some v
    | _ => Option.none
  { recordBytes := at' c!"RECORD_BYTES"
    bytes := at' c!"BYTES"
    records := at' c!"RECORDS"
    rows := at' c!"ROWS"
    rowBytes := at' c!"ROW_BYTES"
    rowSuffixBytes := at' c!"ROW_SUFFIX_BYTES" }

/-- mgs.py 37-60 `mola_pedr_special_block`. Simplification: `int(a / b)` is exact (in the code it is if `a` is below 2^53). -/
def molaFix (i : Ids) (a : Around) (b : Block) : Except PyErr Block :=
  match dataStartByte i.recordBytes (some (blkOf b)) a.pointer a.fileSize with
  | .error e => .error e
  | .ok start => match getKey b c!"ROW_BYTES" with
    | .error e => .error e
    | .ok (.leaf (.int rb)) =>
      if rb = 0 then .error .zeroDivision
      else .ok (setKey b c!"ROWS" (num (((a.fileSize : Int) - start).tdiv rb)))
    | .ok _ => .error .typeError

/-- kaguya.py 53-70 `get_special_block_sp_2b_supp`: a new definition -/
def suppFix (b : Block) : Except PyErr Block :=
  let kept := b.take (b.length - 4)
  match getKey kept c!"COLUMNS" with
  | .error e => .error e
  | .ok (.leaf (.int n)) => .ok (setKey kept c!"COLUMNS" (num (n - 4)))
  | .ok _ => .error .typeError

/-- msl_edr.py 88-97 -/
def mslValues : List (Str × Pvl.Tree Val) :=
  [(c!"INTERCHANGE_FORMAT", txt c!"BINARY"), (c!"SAMPLE_TYPE", txt c!"UNSIGNED_INTEGER"),
   (c!"BAND_STORAGE_TYPE", txt c!"BAND_SEQUENTIAL"), (c!"CHECKSUM", txt c!"N/A"), (c!"INVALID_CONSTANT", num 0),
   (c!"MISSING_CONSTANT", num 0), (c!"SAMPLE_BIT_MASK", txt c!"2#11111111#")]

/-- What is done about an object's definition: nothing, another object's definition is used, it is changed where it is, a
new one is made from some object's definition, or from nothing. -/
inductive Fix where
  | general
  | other (name : Str)
  | edit (f : Block → Except PyErr Block)
  | copy (name : Str) (f : Block → Except PyErr Block)
  | made (b : Block)

/-- one rule of `check_special_block`: a condition and what is done -/
def firstFix : List (Except PyErr Bool × Fix) → Except PyErr Fix
  | [] => .ok .general
  | (.error e, _) :: _ => .error e
  | (.ok true, f) :: _ => .ok f
  | (.ok false, _) :: rest => firstFix rest

/-- checkers.py 964-979: `.DA` in the name of the file of the image, or 1025 records -/
def issImage (i : Ids) (a : Around) : Except PyErr Bool :=
  match a.imageFile with
  | .error e => .error e
  | .ok f => .ok (contains f c!".DA" || i.fileRecords == .int 1025)

/-- checkers.py 815-1019 `check_special_block`. `named`: is there a definition of that name. Simplification: PRODUCT_ID and
FILE_RECORDS are in the label where the corrections look for them. -/
def fixOf (i : Ids) (name : Str) (a : Around) (named : Bool) : Except PyErr Fix :=
  firstFix [
    (.ok (name == c!"XDR_DOCUMENT"), .other c!"IMAGE"),
    (.ok (name == c!"CHMN_HSK_HEADER_TABLE"), .other c!"CHMN_HSKN_HEADER_TABLE"),
    (.ok (startsWith i.dataSet c!"JNO-E/J/SS" && contains i.dataSet c!"BSTFULL" &&
      a.objects.contains c!"FREQ_OFFSET_TABLE" && [c!"FREQ_OFFSET_TABLE", c!"DATA_TABLE"].contains name),
      .other (if name = c!"DATA_TABLE" then c!"TABLE" else c!"DATA_TABLE")),
    (.ok (i.instrument == c!"LAMP" && i.productType == c!"RDR" && contains name c!"IMAGE" && contains name c!"HISTOGRAM"),
      .other c!"CAL_HISTOGRAM_DATA_IMAGE"),
    (.ok (i.dataSet == c!"LRO-L-MRFLRO-5-GLOBAL-MOSAIC-V1.0" && contains i.product c!"GLOBAL_S4_32PPD" && name == c!"IMAGE"),
      .edit (fun b => .ok (setAll b [(c!"LINES", num 5760), (c!"LINE_SAMPLES", num 11520)]))),
    (.ok (i.dataSet == c!"PVO-V-ORPA-5-ELE/ION/PHOTO/UADS-V1.0" && contains i.product c!"ORPA_LOW_RES" && name == c!"TABLE"),
      .edit (fun b => .ok (setKey b c!"ROW_BYTES" (num 243)))),
    (.ok (i.dataSet == c!"PVO-V-OIMS-4-IONDENSITY-12S-V1.0" && name == c!"TABLE"),
      .edit (fun b => .ok (setKey b c!"ROWS" (.leaf (gotten i.fileRecords))))),
    (.ok (contains i.dataSet c!"GO-E-EPD-4-SUMM-" && contains i.product c!"E1_" && name == c!"TIME_SERIES"),
      .edit (fun b => .ok (setKey b c!"ROW_BYTES" (.leaf (gotten i.recordBytes))))),
    (.ok (i.instrumentName == c!"PLASMA WAVE RECEIVER" && contains i.dataSet c!"SUMM" &&
      (name == c!"TIME_SERIES" || name == c!"TABLE")), .edit (pwsFix i)),
    (.ok (contains i.dataSet c!"ULY-J-EPAC-4-SUMM" && name == c!"TABLE"), .edit (ulyssesFix i)),
    (.ok (contains i.dataSet c!"VG2-N-MAG-4-RDR-HGCOORDS" && i.standardProduct == c!"ASCII DATA" && name == c!"TABLE"),
      .edit (fun b => .ok (setKey b c!"ROW_BYTES" (num 145)))),
    (.ok (i.dataSet == c!"VG2-SS-PLS-4-SUMM-1HR-AVG-V1.0" && name == c!"TABLE"),
      .edit (fun b => onlyIf (valueIs b c!"^STRUCTURE" (.str c!"VGR_PLS_HR_2017.FMT")) b (setKey b c!"ROW_BYTES" (num 57)))),
    (.ok (i.dataSet == c!"VG2-SS-PLS-3-RDR-FINE-RES-V1.0" && name == c!"TABLE"),
      .edit (fun b => onlyIf (valueIs b c!"ROW_BYTES" (.int 57)) b (setKey b c!"ROW_BYTES" (num 64)))),
    (.ok (i.dataSet == c!"VG2-U-PLS-5-SUMM-IONBR-48SEC-V1.0" && i.product == c!"SUMRY.DAT" && name == c!"TIME_SERIES"),
      .edit (fun b => .ok (setKey b c!"^STRUCTURE" (txt c!"SUMRY.FMT")))),
    (.ok (i.dataSet == c!"M9-M-IRIS-3-RDR-V1.0" && (name == c!"SPECTRAL_SERIES" || contains name c!"SPECTRUM")),
      .edit (editNth c!"COLUMN" 0 (fun c => .ok (setKey c c!"START_BYTE" (num 1))))),
    (.ok ((matches' (lit c!"IHW-C-MSNRDR-3-RDR-HALLEY-ETA-AQUAR-V1" ++ [dot] ++ lit c!"0") i.dataSet ||
        matches' (lit c!"IHW-C-MSNRDR-3-RDR-HALLEY-ORIONID-V1" ++ [dot] ++ lit c!"0") i.dataSet) && name == c!"TABLE"),
      .edit (onColumns radarColumn)),
    (.ok (contains i.dataSet c!"VG2-" && contains i.dataSet c!"-PRA-3-RDR-LOWBAND-6SEC-V1.0" && name == c!"TABLE"),
      .edit (praFix i)),
    (.ok (i.dataSet == c!"PHX-M-MECA-2-NIEDR-V1.0" && matches' (lit c!"MECA-EM1" ++ [oneOf c!"012"]) i.productType &&
      name == c!"WCHEM_TABLE"), .edit (onColumns wclColumn)),
    (.ok (contains i.dataSet c!"MEX-M-PFS-2-EDR-" && (contains i.product c!"RAW" || contains i.product c!"HK") &&
      name == c!"TABLE"), .edit (pfsFix i a)),
    (.ok (i.host == c!"MARS EXPRESS" && i.instrument == c!"MRS" && hasAll i.product [c!"ODF", c!"L1B", c!"RMP"] &&
      contains name c!"TABLE"), .other c!"RAMP_TABLE"),
    (.ok (i.dataSet == c!"WFF-E-ATM-1/5-V1.0" && name == c!"IMAGE"), .edit (wffFix i)),
    (andThen (i.dataSet == c!"CO-CAL-ISS-2-V1.0" && name == c!"IMAGE") (issImage i a),
      .edit (fun b => .ok (delKey b c!"LINE_PREFIX_BYTES"))),
    (.ok ([c!"CO-S-ISSNA/ISSWA-2-EDR-V1.0", c!"CO-E/V/J-ISSNA/ISSWA-2-EDR-V1.0",
        c!"CO-CAL-ISSNA/ISSWA-2-EDR-V1.0"].contains i.dataSet && [c!"LINE_PREFIX_TABLE", c!"TELEMETRY_TABLE"].contains name),
      .edit (basename (if name = c!"LINE_PREFIX_TABLE" then c!"^LINE_PREFIX_STRUCTURE" else c!"^STRUCTURE"))),
    (.ok (i.dataSet == c!"MGS-M-MOLA-3-PEDR-L1A-V1.0" && contains name c!"TABLE"), .edit (molaFix i a)),
    (.ok (i.dataSet == c!"IUE-C-SWP-3-EDR-IUECDB-V1.0" && name == c!"QUALITY_IMAGE"),
      if named then .general else .other c!"QUALITY_QUALITY_IMAGE"),
    (.ok (i.spacecraft == c!"GALILEO ORBITER" && i.instrumentName == c!"SOLID STATE IMAGING SYSTEM" &&
      name == c!"LINE_PREFIX_TABLE"), .edit (onColumns ssiColumn)),
    (.ok (mslCamera i && name == c!"IMAGE"), .edit (fun b => .ok (setAll b mslValues))),
    (.ok (vera i && contains i.product c!"1B_RMP_"),
      if name = c!"DOPPLER_SBAND_TABLE" then .other c!"RAMP_TABLE" else .general),
    (.ok (i.dataSet == c!"SLN-L-GRS-5-NUCLIDE-MAP-V2.0" && name == c!"TABLE"), .other c!"SPREADSHEET"),
    (.ok (contains i.dataSet c!"SLN-L-SP" && contains i.dataSet c!"LEVEL2B" && name == c!"ANCILLARY_AND_SUPPLEMENT_DATA"),
      .copy name suppFix),
    (.ok (contains i.dataSet c!"SLN-L-LMAG-5-MA-GRID" && name == c!"TABLE"), .made a.grid),
    (.ok (i.dataSet == c!"SLN-L-LMAG-5-1D-SIGMA-ECS-V1.0" && name == c!"TABLE"), .made a.sigma),
    (.ok (i.dataSet == c!"SLN-L-LMAG-3-MAG-TS-V1.0" && name == c!"TABLE"),
      .copy c!"TIME_SERIES" (fun b => match getKey b c!"ROWS" with
        | .error e => .error e
        | .ok r => .ok (setKey a.series c!"ROWS" r))),
    (.ok (contains i.dataSet c!"SLN-L-RISE-5-TRAJ-" && name == c!"TABLE"), .made a.trajectory)]

/-- the definitions in the metadata, by name -/
abbrev Defs := Str → Option Block

/-- the definitions with another one in place -/
def Defs.set (d : Defs) (name : Str) (b : Block) : Defs := fun n => if n = name then some b else d n

/-- queries.py 310-320, 891, 904 (`specialize(get_block, check_special_block)`) and checkers.py 804-812: an object's
definition as it is used, and the definitions in the metadata afterwards. Simplifications: each name has a definition of
its own, which no other name shares; interleaved objects (queries.py 315-319) are left out; a correction that raises has
changed nothing (in the code what it has done before stays); a missing definition raises TypeError (sometimes the code
raises AttributeError, which is what calling `items` of None does). -/
def readBlock (i : Ids) (name : Str) (a : Around) (d : Defs) : Except PyErr (Option Block × Defs) :=
  match fixOf i name a (d name).isSome with
  | .error e => .error e
  | .ok .general => .ok (d name, d)
  | .ok (.other n) => .ok (d n, d)
  | .ok (.made b) => .ok (some b, d)
  | .ok (.edit f) => match d name with
    | none => .error .typeError
    | some b => match f b with
      | .error e => .error e
      | .ok b' => .ok (some b', d.set name b')
  | .ok (.copy n f) => match d n with
    | none => .error .typeError
    | some b => match f b with
      | .error e => .error e
      | .ok b' => .ok (some b', d)

/-- the definition as it is used the `n`-th time after this one, and the definitions in the metadata then -/
def readTimes (i : Ids) (name : Str) (a : Around) : Nat → Defs → Except PyErr (Option Block × Defs)
  | 0, d => readBlock i name a d
  | n + 1, d => match readBlock i name a d with
    | .error e => .error e
    | .ok (_, d') => readTimes i name a n d'

end Verif.Special
