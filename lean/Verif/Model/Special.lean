/-
Model of the special cases: the functions of `pdr/formats/checkers.py` that decide, from what a label says about the
mission and the product, whether the general rules for finding and reading an object are set aside, and the rules that
then apply to where an object starts (`check_special_offset`), how far a table goes (`check_special_position`), what a
sample is (`check_special_sample_type`), which file an object is in (`check_special_fn`) and where its HDU is
(`check_special_fits_start_byte`). Of `check_special_table_reader`, `check_special_structure`,
`check_special_compressed_file_reader` and `check_trivial_case` only the decision is modelled.
-/
import Verif.Model.Locate
import Verif.Model.Datatypes
import Verif.Model.Literal
import Verif.Model.Files
import Verif.Model.Xml
import Verif.Model.Dispatch

namespace Verif.Special
open Verif.Py Verif.Locate

/-- pdrtypes.py 90-115 and pdr.py 184-197: what the special cases look at. The first value of that name anywhere in the
label; `""` if there is none. Simplification: the names are texts (a label may give a number, for which the code raises
a TypeError), and DATA_QUALITY_DESC, LABEL_RECORDS and RECORD_TYPE, which no special case reads, are left out. -/
structure Ids where
  dataSet : Str := []
  dataSetName : Str := []
  fileName : Str := []
  fileRecords : Val := .str []
  instrument : Str := []
  host : Str := []
  instrumentName : Str := []
  note : Str := []
  product : Str := []
  productType : Str := []
  recordBytes : Val := .str []
  rowBytes : Val := .str []
  rows : Val := .str []
  spacecraft : Str := []
  standardProduct : Str := []

/-- Python's `all(x in s for x in xs)` -/
def hasAll (s : Str) (xs : List Str) : Bool := xs.all (contains s)

/-- Python's `any(x in s for x in xs)` -/
def hasAny (s : Str) (xs : List Str) : Bool := xs.any (contains s)

/-- `re.match` for a pattern that is a sequence of letters and sets of letters: each character is tested in turn -/
def matches' : List (Char → Bool) → Str → Bool
  | [], _ => true
  | _ :: _, [] => false
  | p :: ps, c :: cs => p c && matches' ps cs

/-- the letters of a pattern -/
def lit (s : Str) : List (Char → Bool) := s.map (fun c x => x == c)

/-- `.` in a pattern -/
def dot (c : Char) : Bool := c != '\n'

/-- `[...]` in a pattern -/
def oneOf (s : Str) (c : Char) : Bool := s.contains c

/-- the first rule that holds; a rule may raise -/
def anyRule : List (Except PyErr Bool) → Except PyErr Bool
  | [] => .ok false
  | .error e :: _ => .error e
  | .ok true :: _ => .ok true
  | .ok false :: rest => anyRule rest

/-- `a and b`, where `b` may raise -/
def andThen (a : Bool) (b : Except PyErr Bool) : Except PyErr Bool := if a then b else .ok false

/-! ### groups of products that several special cases name -/

/-- MSL cameras (checkers.py 116-121 and others) -/
def mslCamera (i : Ids) : Bool :=
  i.host == c!"MARS SCIENCE LABORATORY" &&
    [c!"MAHLI", c!"MAST_RIGHT", c!"MAST_LEFT", c!"MARDI"].contains i.instrument && contains i.dataSet c!"EDR"

/-- Venus Express VeRa (checkers.py 357-358 and others) -/
def vera (i : Ids) : Bool := i.host == c!"VENUS EXPRESS" && i.instrument == c!"VRA"

/-- checkers.py 740-742: `CO-(CAL-ISS|[S/EVJ-]+ISSNA/ISSWA-2)` at the start of DATA_SET_ID. (`I` is not one of `S/EVJ-`,
so the repeated part ends where the first other character is.) -/
def cassiniIss (i : Ids) : Bool :=
  startsWith i.dataSet c!"CO-CAL-ISS" ||
    (startsWith i.dataSet c!"CO-" &&
      (match (i.dataSet.drop 3).takeWhile (oneOf c!"S/EVJ-") with
        | [] => false
        | _ :: _ => startsWith ((i.dataSet.drop 3).dropWhile (oneOf c!"S/EVJ-")) c!"ISSNA/ISSWA-2"))

/-! ### where an object starts -/

/-- What the offset rules read besides the identifiers. `pointer`: the value of `^NAME` (`none`: the label has none);
`clock`: `float(SPACECRAFT_CLOCK_STOP_COUNT)` or what that raises, as an exact number; `fileSize`, `qubeSize`: sizes of the
object's file and of the file of the QUBE. -/
structure Ptr where
  name : Str
  file : Str
  fileSize : Nat
  pointer : Target
  clock : Except PyErr ℚ := .error .typeError
  qubeSize : Nat := 0

/-- `target[1]` (or `target[-1]`) minus a number: only a number in a list will do -/
def itemMinus (i : Option Item) (k : Int) : Except PyErr Int :=
  match i with
  | none => .error .indexError
  | some (.val (.int n)) => .ok (n - k)
  | some _ => .error .typeError

/-- `target[1] - k`: a text has characters, a quantity has no key 1 -/
def secondMinus (t : Target) (k : Int) : Except PyErr Int :=
  match t with
  | .seq xs => itemMinus xs[1]? k
  | .item (.val (.str s)) => if 2 ≤ s.length then .error .typeError else .error .indexError
  | .item (.quantity _ _) => .error .keyError
  | .item _ => .error .typeError

/-- `target[-1] - k` -/
def lastMinus (t : Target) (k : Int) : Except PyErr Int :=
  match t with
  | .seq xs => itemMinus xs.getLast? k
  | .item (.val (.str s)) => if s = [] then .error .indexError else .error .typeError
  | .item (.quantity _ _) => .error .keyError
  | .item _ => .error .typeError

/-- _helpers.py 49-64 `count_from_bottom_of_file` -/
def fromBottom (fileSize : Nat) (rows rowBytes : Val) : Except PyErr Int :=
  match mulV rows rowBytes with
  | .ok (.int n) => .ok ((fileSize : Int) - n)
  | .ok _ => .error .typeError
  | .error e => .error e

/-- cassini.py 164-167: the length of a row -/
def huygensRow (i : Ids) (file : Str) : Except PyErr Val :=
  if hasAny file [c!"ULVS_DDP", c!"DLIS_AZ_DDP", c!"DLV_DDP"] then .ok i.rowBytes else addV i.rowBytes (.int 1)

/-- cassini.py 152-172 `get_offset` -/
def huygensOffset (i : Ids) (p : Ptr) : Except PyErr Int :=
  match huygensRow i p.file with
  | .error e => .error e
  | .ok rb => fromBottom p.fileSize i.rows rb

/-- `re.split(r",|[(|)]", s)` -/
def splitCommas : Str → List Str
  | [] => [[]]
  | c :: cs => match splitCommas cs with
    | [] => [[c]]
    | h :: t => if c = ',' ∨ c = '(' ∨ c = '|' ∨ c = ')' then [] :: h :: t else (c :: h) :: t

/-- clementine.py 8-15 `get_offset`. Simplification: RECORD_BYTES is read as an identifier (the code calls `metaget`,
which gives None where the identifier is `""`; both then raise or give no number). -/
def clementineOffset (i : Ids) (p : Ptr) : Except PyErr Int :=
  match p.pointer with
  | .item (.val (.str s)) => match (splitCommas s)[2]? with
    | none => .error .indexError
    | some d => match Literal.pyInt d 10 with
      | none => .error .valueError
      | some n => match mulV (.int (n - 1)) i.recordBytes with
        | .ok (.int k) => .ok k
        | .ok _ => .error .typeError
        | .error e => .error e
  | _ => .error .typeError

/-- themis.py 54-68 `get_qube_offset`; comparing a text with a number raises -/
def themisOffset (i : Ids) (p : Ptr) : Except PyErr (Option Int) :=
  match i.fileRecords with
  | .int n => if (p.qubeSize : Int) ≤ n then (lastMinus p.pointer 1).map some else .ok none
  | _ => .error .typeError

/-- checkers.py 76-81: which file names, of any mission, count as DISR's -/
def disrWords : List Str := [c!"STRIP", c!"VISIBL", c!"IMAGE", c!"IR_", c!"TIME", c!"SUN", c!"SOLAR"]

/-- checkers.py 77-81. Python's `and` binds closer than `or`. -/
def disr (i : Ids) : Bool :=
  (i.instrumentName == c!"DESCENT IMAGER SPECTRAL RADIOMETER" && i.productType == c!"RDR") || hasAny i.fileName disrWords

/-- cassini.py 336-350 `coiss_1006_offset`. Simplification: a text (RECORD_BYTES is a text) counts as an error. -/
def coissOffset (i : Ids) (p : Ptr) : Except PyErr (Option Int) :=
  if p.name = c!"IMAGE_HEADER" then .ok none
  else match secondMinus p.pointer 2 with
    | .error e => .error e
    | .ok n => match mulV i.recordBytes (.int n) with
      | .ok (.int k) => .ok (some k)
      | .ok _ => .error .typeError
      | .error e => .error e

/-- checkers.py 92-123: the rules after the one for Cassini ISS -/
def laterOffset (i : Ids) (p : Ptr) : Except PyErr (Option Int) :=
  if i.instrument == c!"CRAT" && i.productType == c!"EDR" && p.name == c!"TABLE_1" then .ok (some 64)
  else if i.dataSet == c!"PHX-M-SSI-5-ATMOS-OPACITY-V1.0" && contains p.name c!"TABLE" then
    (fromBottom p.fileSize i.rows i.rowBytes).map some
  else if i.dataSet == c!"PHX-M-MECA-4-NIRDR-V1.0" && [c!"MECA_WCL_CP", c!"MECA_WCL_CV"].contains i.productType &&
      contains p.name c!"TABLE" then (lastMinus p.pointer 1).map some
  else if i.host == c!"MARS SCIENCE LABORATORY" && i.instrument == c!"REMS" && p.name == c!"REMS_REPORT_TABLE" &&
      hasAny i.product [c!"HSDEF__", c!"HSREG__"] then (secondMinus p.pointer 1).map some
  else if mslCamera i then .ok (some 64)
  else .ok none

/-- checkers.py 59-123 `check_special_offset` -/
def specialOffset (i : Ids) (p : Ptr) : Except PyErr (Option Int) :=
  if i.instrument = c!"CHEMIN" then
    -- msl_cmn.py 55-78
    if p.name = c!"HISTOGRAM" then .ok (some 300)
    else if p.name = c!"CHMN_HSK_HEADER_TABLE" then .ok (some 0)
    else .ok none
  else if i.dataSet == c!"CLEM1-L-RSS-5-BSR-V1.0" &&
      (startsWith p.name c!"HEADER_TABLE" || startsWith p.name c!"DATA_TABLE") then
    (clementineOffset i p).map some
  else if i.instrument == c!"THEMIS" && p.name == c!"QUBE" then themisOffset i p
  else if disr i then (huygensOffset i p).map some
  else if i.dataSet = c!"CO-E/V/J-ISSNA/ISSWA-2-EDR-V1.0" then
    match p.clock with
    | .error e => .error e
    | .ok t => if 1359362956 ≤ t ∧ t ≤ 1363539029 then coissOffset i p else laterOffset i p
  else laterOffset i p

/-- queries.py 894 (`specialize(data_start_byte, check_special_offset)`, func.py 171-188): where an object starts. The
special answer is taken as it is. -/
def startByte (i : Ids) (block : Option Blk) (target : Target) (p : Ptr) : Except PyErr Int :=
  match specialOffset i p with
  | .error e => .error e
  | .ok (some n) => .ok n
  | .ok none => dataStartByte i.recordBytes block target p.fileSize

/-! ### how far a table goes -/

/-- `block[key]` -/
def blockGet (block : Option Blk) (f : Blk → Option Val) : Except PyErr Val :=
  match block with
  | none => .error .typeError
  | some b => match f b with
    | none => .error .keyError
    | some v => .ok v

/-- the general position with another length -/
def withLength (general : Except PyErr TablePos) (length : Except PyErr Val) : Except PyErr TablePos :=
  match general with
  | .error e => .error e
  | .ok t => match length with
    | .error e => .error e
    | .ok l => .ok { t with length := l }

/-- `block["ROWS"] * (block["ROW_BYTES"] + k)` -/
def rowsTimes (block : Option Blk) (k : Int) : Except PyErr Val :=
  match blockGet block Blk.rows with
  | .error e => .error e
  | .ok r => match blockGet block Blk.rowBytes with
    | .error e => .error e
    | .ok rb => match addV rb (.int k) with
      | .error e => .error e
      | .ok rb => mulV r rb

/-- cassini.py 98-132 `get_position` -/
def huygensPosition (i : Ids) (name file : Str) (fileSize : Nat) (general : Except PyErr TablePos) :
    Except PyErr TablePos :=
  match general with
  | .error e => .error e
  | .ok t => match huygensRow i file with
    | .error e => .error e
    | .ok rb => match mulV i.rows rb with
      | .error e => .error e
      | .ok l =>
        if name = c!"HEADER" then
          match l with
          | .int n => .ok { t with start := 0, length := .int ((fileSize : Int) - n) }
          | _ => .error .typeError
        else .ok { t with length := l }

/-- checkers.py 597-609. Python's `and` binds closer than `or`. -/
def huygens (i : Ids) (name : Str) : Bool :=
  (i.host == c!"HUYGENS PROBE" &&
    hasAny i.fileName [c!"DARK", c!"STRIP", c!"VIS_EX", c!"SUN", c!"VISIBL", c!"TIME", c!"SOLAR", c!"IMAGE"]) ||
  (i.instrumentName == c!"DESCENT IMAGER SPECTRAL RADIOMETER" && i.productType == c!"RDR" &&
    [c!"TABLE", c!"HEADER"].contains name)

/-- epoxi.py 6-19 `cart_model_get_position` -/
def cartPosition (block : Option Blk) (target : Target) (general : Except PyErr TablePos) : Except PyErr TablePos :=
  match general with
  | .error e => .error e
  | .ok t => match secondMinus target 1 with
    | .error e => .error e
    | .ok n => match blockGet block Blk.rows with
      | .error e => .error e
      | .ok r => match mulV (.int 79) r with
        | .error e => .error e
        | .ok l => .ok { t with start := 79 * n, length := l }

/-- the answer of a rule of `check_special_position` -/
def posRule (r : Except PyErr TablePos) : Except PyErr (Option (Option TablePos)) := r.map (fun t => some (some t))

/-- products of which `ROW_BYTES` is one too small (checkers.py 620-626, 650-667) -/
def shortRow (i : Ids) (name : Str) : Bool :=
  (i.dataSet == c!"LRO-L-RSS-1-TRACKING-V1.0" && name == c!"WEAREC_TABLE")

/-- Mars Express MRS tables of which `ROW_BYTES` is one too small (checkers.py 650-667) -/
def mrsShortRow (i : Ids) (name : Str) : Bool :=
  (i.host == c!"MARS EXPRESS" && i.instrument == c!"MRS" && hasAll i.product [c!"ICL", c!"L1B"] && name == c!"DOPPLER_TABLE") ||
  (i.host == c!"MARS EXPRESS" && i.instrument == c!"MRS" && hasAll i.product [c!"ODF", c!"L02"] && name == c!"RANGING_TABLE")

/-- checkers.py 669-673 -/
def ebroccSets : List Str :=
  [c!"ESO1M-SR-APPH-4-OCC-V1.0", c!"ESO22M-SR-APPH-4-OCC-V1.0", c!"IRTF-SR-URAC-4-OCC-V1.0",
   c!"PAL200-SR-CIRC-4-OCC-V1.0", c!"MCD27M-SR-IIRAR-4-OCC-V1.0"]

/-- checkers.py 577-701 `check_special_position`. `general` is what `table_position` answers. `some none`: the position
is `None` (vex_vera.py 87-100). -/
def specialPosition (i : Ids) (block : Option Blk) (target : Target) (name file : Str) (fileSize : Nat)
    (general : Except PyErr TablePos) : Except PyErr (Option (Option TablePos)) :=
  if i.instrument == c!"MARSIS" && contains i.dataSetName c!" TEC " then
    posRule (withLength general (mulV i.fileRecords (.int 143)))
  else if huygens i name then posRule (huygensPosition i name file fileSize general)
  else if contains i.dataSet c!"CO-V/E/J/S/SS-RPWS-" && i.productType == c!"ANCILLARY" &&
      name == c!"RPWS_TIME_ORDERED_TABLE" then posRule (withLength general (mulV i.fileRecords i.rowBytes))
  else if shortRow i name then posRule (withLength general (rowsTimes block 1))
  else if i.dataSet == c!"DIF-C-HRIV/MRI-5-HARTLEY2-SHAPE-V1.0" && i.product == c!"HARTLEY2-CARTESIAN-PLATE-MODEL" &&
      contains name c!"TABLE" then posRule (cartPosition block target general)
  else if contains i.dataSet c!"MEX-M-MRS-5-OCC" && name == c!"ATM_TABLE" then
    posRule (withLength general (match blockGet block Blk.rows with
      | .error e => .error e
      | .ok r => mulV (.int 278) r))
  else if i.dataSet == c!"PHX-M-SSI-5-ATMOS-OPACITY-V1.0" && contains name c!"HEADER" then
    -- phoenix.py 87-102 (`_extract_table_records` of no block raises)
    match block with
    | none => .error .attributeError
    | some _ => .ok (some (some ⟨0, tableRecords block, true⟩))
  else if mrsShortRow i name then posRule (withLength general (rowsTimes block 1))
  else if ebroccSets.contains i.dataSet && contains i.product c!"GEOM" && name == c!"SERIES" then
    posRule (withLength general (rowsTimes block 2))
  else if i.dataSet == c!"MRO-M-CRISM-5-RDR-MULTISPECTRAL-V1.0" && contains i.product c!"MRRWV" && name == c!"TABLE" then
    posRule (withLength general (match blockGet block Blk.rows with
      | .error e => .error e
      | .ok r => mulV r i.recordBytes))
  else if i.dataSet == c!"MSX-L-SPIRIT3-2/4-V1.0" && name == c!"ENVI_HEADER" then
    posRule (withLength general (.ok (.int fileSize)))
  else if vera i && i.productType == c!"UDR" then .ok (some none)
  else .ok none

/-- queries.py 885-910 (`specialize(table_position, check_special_position)`): where a table is and how long; `none` if the
answer is `None` -/
def position (i : Ids) (block : Option Blk) (target : Target) (name file : Str) (fileSize : Nat)
    (general : Except PyErr TablePos) : Except PyErr (Option TablePos) :=
  match specialPosition i block target name file fileSize general with
  | .error e => .error e
  | .ok (some t) => .ok t
  | .ok none => general.map some

/-! ### what a sample is -/

/-- `sample_types(t, int(n), for_numpy=True)` as the answer of a rule -/
def readAs (t : Str) (n : Nat) : Except PyErr (Option Str) := (Datatypes.sampleTypes t n true).map some

/-- lro.py 37-58 `crater_bit_col_sample_type` -/
def craterSample (t : Str) (n : Nat) : Except PyErr (Option Str) :=
  if t = c!"BIT_STRING" then readAs c!"MSB_BIT_STRING" n
  else if contains t c!"N/A" then readAs c!"MSB_UNSIGNED_INTEGER" n
  else .ok none

/-- galileo.py 46-70 `nims_edr_sample_type` -/
def nimsSample (t : Str) (n : Nat) : Except PyErr (Option Str) :=
  if t = c!"BIT_STRING" then readAs c!"LSB_BIT_STRING" n
  else if contains t c!"N/A" then readAs c!"CHARACTER" n
  else .ok none

/-- ulysses.py 24-43 `get_sample_type` -/
def ulyssesSample (t : Str) (n : Nat) : Except PyErr (Option Str) :=
  if t = c!"BIT_STRING" then readAs c!"MSB_BIT_STRING" n else .ok none

/-- cassini.py 307-333 `line_prefix_sample_type` -/
def issSample (t : Str) (n : Nat) : Except PyErr (Option Str) :=
  if contains t c!"N/A" then readAs c!"VOID" n
  else if contains t c!"LSB" then readAs (Xml.replace c!"LSB" c!"MSB" t) n
  else if t = c!"BIT_STRING" then readAs c!"MSB_BIT_STRING" n
  else .ok none

/-- checkers.py 704-745 `check_special_sample_type`; `t`, `n`: the type and width in the label -/
def specialSample (i : Ids) (t : Str) (n : Nat) : Except PyErr (Option Str) :=
  if i.dataSet == c!"JNO-J-JIRAM-3-RDR-V1.0" && i.productType == c!"RDR" then .ok (some c!"<f")
  else if i.instrument == c!"LROC" && i.productType == c!"EDR" then .ok (some c!">B")
  else if i.dataSet == c!"MGN-V-RDRS-5-GVDR-V1.0" && contains i.product c!"GVANF" && contains t c!"N/A" then
    .ok (some c!">B")
  else if i.dataSet == c!"LRO-L-CRAT-2-EDR-RAWDATA-V1.0" then craterSample t n
  else if i.spacecraft == c!"GALILEO_ORBITER" && contains i.dataSet c!"-NIMS-2-EDR-V1.0" then nimsSample t n
  else if i.dataSet == c!"ULY-J-EPAC-4-SUMM-PHA-24HR-V1.0" && endsWith i.product c!"BIN" then ulyssesSample t n
  else if cassiniIss i then issSample t n
  else .ok none

/-- datawrap.py 85-87 (`specialize(im_sample_type, check_special_sample_type)`) with queries.py 201-208: the dtype of an
image's samples; `none` if the label gives no SAMPLE_TYPE -/
def imageSample (i : Ids) (t : Str) (n : Nat) : Except PyErr (Option Str) :=
  match specialSample i t n with
  | .error e => .error e
  | .ok (some d) => .ok (some d)
  | .ok none => if t = [] then .ok none else readAs t n

/-! ### which file an object is in -/

/-- What the file rules read: the product's file and label as texts, and the object's pointer (`none`: there is none;
`some (.item (.quantity ..))`: a quantity, a `dict`). -/
structure Place where
  file : Str
  labelDir : Str
  labelName : Str
  pointer : Option Target

/-- themis.py 27-51 `check_gzip_fn`, unpacked into two by pdr.py 453-455: a bare text has as many parts as characters,
and the first of them is not `True` -/
def themisFiles (p : Place) : Except PyErr (Option (List Str)) :=
  let named : Except PyErr Str := match p.pointer with
    | some (.item (.val (.str s))) => .ok s
    | some (.seq (.val (.str s) :: _)) => .ok s
    | some (.seq []) => .error .indexError
    | _ => .error .attributeError
  let other : Bool := match p.pointer with
    | some (.item (.quantity _ _)) => true
    | some (.item (.val (.int _))) => true
    | _ => false
  if other then .ok none
  else match named with
    | .error e => .error e
    | .ok s =>
      if endsWith s c!"gz" then (if s.length = 2 then .ok none else .error .valueError)
      else .ok (some [s, s ++ c!".gz"])

/-- clementine.py 18-25 `get_fn` -/
def clementineFile (p : Place) : Except PyErr (Option (List Str)) :=
  match p.pointer with
  | some (.item (.val (.str s))) => match (splitCommas s)[1]? with
    | none => .error .indexError
    | some f => .ok (some [f])
  | _ => .error .typeError

/-- `Path(name).stem`: up to the last dot, if there is something before it and after it -/
def pathStem (name : Str) : Str :=
  let ext := (name.reverse.takeWhile (fun c => c != '.')).reverse
  let before := name.take (name.length - ext.length - 1)
  if ext = [] ∨ before = [] ∨ ext.length = name.length then name else before

/-- a file beside the label with the label's name and another extension (cassini.py 202-203, nh.py 17-18,
voyager.py 167-168) -/
def besideLabel (p : Place) (ext : Str) : Str := p.labelDir ++ c!"/" ++ pathStem p.labelName ++ ext

/-- checkers.py 1158-1213 `check_special_fn`: the files to look for instead of the one in the label -/
def specialFiles (i : Ids) (name : Str) (p : Place) : Except PyErr (Option (List Str)) :=
  if i.dataSet == c!"CLEM1-L-RSS-5-BSR-V1.0" && [c!"HEADER_TABLE", c!"DATA_TABLE"].contains name then clementineFile p
  else if i.spacecraft == c!"MAGELLAN" && (endsWith p.file c!".img" || endsWith p.file c!"ibg") && name == c!"TABLE" then
    .ok (some [p.file])
  else if startsWith i.dataSet c!"CO-D-CDA" && name == c!"TABLE" then .ok (some [besideLabel p c!".TAB"])
  else if i.instrument = c!"THEMIS" then themisFiles p
  else if [c!"NH-P-PEPSSI-4-PLASMA-V1.0", c!"NH-X-SWAP-5-DERIVED-SOLARWIND-V1.0",
      c!"NH-P/PSA-LORRI/ALICE/REX-5-ATMOS-V1.0"].contains i.dataSet && name == c!"SPREADSHEET" then
    .ok (some [besideLabel p c!".csv"])
  else if i.spacecraft == c!"GALILEO ORBITER" && i.instrumentName == c!"SOLID_STATE_IMAGING" &&
      name == c!"IMAGE_LINE_PREFIX_TABLE" then
    .ok (some [Xml.replace c!".LBL" c!".IMG" (Xml.replace c!".lbl" c!".img" p.file)])
  else if i.dataSet == c!"VG2-SR/UR/NR-PPS-2/4-OCC-V1.0" && i.productType == c!"JITTER" && name == c!"SERIES" then
    .ok (some [besideLabel p c!".TAB"])
  else if mslCamera i && name == c!"IMAGE" then
    .ok (some [Xml.replace c!".LBL" c!".DAT" (Xml.replace c!".lbl" c!".dat"
      (Xml.replace c!".IMG" c!".DAT" (Xml.replace c!".img" c!".dat" p.file)))])
  else .ok none

/-! ### the other decisions -/

/-- checkers.py 1216-1223 `check_special_qube_band_storage` -/
def specialBands (i : Ids) : Option Str := if i.host = c!"CASSINI_ORBITER" then some c!"BAND_SEQUENTIAL" else none

/-- checkers.py 1147-1155 `special_image_constants` -/
def specialConstants (i : Ids) : List (Str × Int) := if i.instrument = c!"CRISM" then [(c!"NULL", 65535)] else []

/-- checkers.py 1278-1316 `check_special_objects` -/
def specialObjects (i : Ids) : Option (List Str) :=
  if mslCamera i then some [c!"IMAGE", c!"MODEL_DESC"]
  else if i.spacecraft == c!"Chang'E-3 Rover" && contains i.product c!"CE3_BMYK_VNIS-CC_SCI_N" && contains i.product c!".2A" then
    some [c!"LABEL", c!"IMAGE_PREFIX", c!"IMAGE"]
  else if i.spacecraft == c!"Chang'E-3 Rover" && contains i.product c!"CE3_BMYK_VNIS-SC_SCI_N_" && contains i.product c!".2A" then
    some [c!"LABEL", c!"TABLE"]
  else if i.spacecraft == c!"Chang'E-3 Rover" && contains i.product c!"CE3_BMYK_VNIS-SD_SCI_N_" && contains i.product c!".2A" then
    some [c!"LABEL", c!"TABLE"]
  else none

/-- checkers.py 1319-1337 `check_special_compressed_file_reader`: is there a special reader for an image -/
def specialImage (i : Ids) : Bool :=
  mslCamera i || (i.spacecraft == c!"MARS_GLOBAL_SURVEYOR" && [c!"MOC-NA", c!"MOC-WA"].contains i.instrument &&
    contains i.fileName c!"IMQ")

/-- checkers.py 1022-1144 `check_trivial_case` after `is_trivial`: is an object not to be loaded -/
def specialTrivial (i : Ids) (name file : Str) : Bool :=
  (i.instrument == c!"APXS" && contains name c!"ERROR_CONTROL_TABLE") ||
  (i.instrumentName == c!"TRIAXIAL FLUXGATE MAGNETOMETER" && name == c!"TABLE" && contains i.dataSet c!"-EDR-") ||
  (i.instrumentName == c!"CHEMISTRY CAMERA REMOTE MICRO-IMAGER" && name == c!"IMAGE_REPLY_TABLE") ||
  (startsWith i.dataSet c!"ODY-M-THM-5" && [c!"HEADER", c!"HISTORY"].contains name) ||
  (i.dataSet == c!"CO-CAL-ISS-2-V1.0" && [c!"TELEMETRY_TABLE", c!"LINE_PREFIX_TABLE"].contains name &&
    i.fileRecords == .int 1025) ||
  (i.spacecraft == c!"MAGELLAN" && (endsWith file c!".img" || endsWith file c!".ibg") && name == c!"TABLE") ||
  (contains i.dataSet c!"GO-A-SSI-3-" && contains i.dataSet c!"-CALIMAGES-V1.0" && contains i.product c!"QUB" &&
    name == c!"HEADER") ||
  (i.instrument == c!"CHEMIN" && name == c!"HEADER") ||
  (contains i.dataSet c!"MSL-M-SAM-" && contains name c!"FILE") ||
  (i.instrument == c!"NIMS" && i.spacecraft == c!"GALILEO_ORBITER" && name == c!"SAMPLE_SPECTRUM_QUBE") ||
  (i.dataSet == c!"BUGLAB-L-BUG-4-APOLLO-SAMPLES-V1.0" && name == c!"HEADER") ||
  (i.dataSet == c!"MSL-M-APXS-4/5-RDR-V1.0" && name == c!"HEADER") ||
  (vera i && contains i.product c!"1A_TNF") ||
  (i.host == c!"VENUS EXPRESS" && i.instrument == c!"VIRTIS" && name == c!"HISTORY") ||
  (contains i.dataSet c!"MRO-M-MCS-5-DDR" && contains i.dataSet c!"V1.0") ||
  (i.dataSet == c!"SLN-L-PACE-3-PBF1-V3.0" && name == c!"TIME_SERIES") ||
  (contains i.dataSet c!"SLN-L-SP" && contains name c!"L2D_RESULT_ARRAY") ||
  (i.dataSet == c!"SLN-L-TC-4-DEM-ORTHO-V1.0" && name == c!"QA_FILENAME") ||
  (i.dataSet == c!"SLN-L-GRS-3-ENG-SPECTRUM-V1.0" && name == c!"TABLE") ||
  (contains file c!"CE3_BMYK_VNIS-CC_SCI_" && name == c!"CAL_TARGET_DATA") ||
  (i.spacecraft == c!"CE1" && contains name c!"IMAGE_PREFIX")

/-- dispatch.py 73-129 with the decision above: the loader for an object -/
def loaderOf (i : Ids) (name file : Str) : Dispatch.Loader :=
  Dispatch.pointerToLoader (specialTrivial i name file) i.dataSet name file

/-- What the rules for tables read of an object's definition: `^STRUCTURE`, INTERCHANGE_FORMAT, and `^STRUCTURE` of its
CONTAINER (`none`: absent, the code raises a KeyError). -/
structure Def where
  structure' : Option Str := none
  format : Option Str := none
  container : Option Str := none

/-- `block[key] == value` -/
def keyIs (v : Option Str) (s : Str) : Except PyErr Bool :=
  match v with
  | none => .error .keyError
  | some t => .ok (t == s)

/-- checkers.py 126-375 `check_special_table_reader`: is there a special reader for a table -/
def specialReader (i : Ids) (name file : Str) (d : Def) : Except PyErr Bool :=
  anyRule [
    .ok ([c!"CO-S-MIMI-4-CHEMS-CALIB-V1.0", c!"CO-S-MIMI-4-LEMMS-CALIB-V1.0", c!"CO-S-MIMI-4-INCA-CALIB-V1.0",
      c!"CO-E/J/S/SW-MIMI-2-LEMMS-UNCALIB-V1.0", c!"CO-SSA-RADAR-3-ABDR-SUMMARY-V1.0"].contains i.dataSet),
    .ok (i.host == c!"CASSINI ORBITER" && i.productType == c!"ANCILLARY" && contains i.dataSet c!"CO-S-MIMI-4-"),
    .ok (i.instrument == c!"CHEMIN" && contains name c!"SPREADSHEET"),
    .ok (contains i.dataSet c!"MSL-M-SAM-" && contains i.product c!"QMS" && contains name c!"TABLE"),
    .ok (i.dataSet == c!"MSL-M-ROVER-6-RDR-PLACES-V1.0" && name == c!"SPREADSHEET"),
    .ok (i.instrumentName == c!"ROSETTA PLASMA CONSORTIUM - MUTUAL IMPEDANCE PROBE" && contains name c!"SPECTRUM_TABLE"),
    .ok ((i.spacecraft == c!"MAGELLAN" && name == c!"TABLE" && startsWith i.note c!"Geometry") ||
      (i.dataSet == c!"GO-J-NIMS-4-ADR-SL9IMPACT-V1.0" && name == c!"TABLE" &&
        hasAny i.product [c!"CAL_DATA.TAB", c!"G_DATA.TAB", c!"R_DATA.TAB"])),
    .ok (startsWith i.dataSet c!"MGN-V-RSS-5-OCC-PROF" && name == c!"TABLE"),
    .ok (i.instrument == c!"DLRE" && [c!"GCP", c!"PCP", c!"PRP"].contains i.productType && name == c!"TABLE"),
    .ok (i.dataSet == c!"GO-J-PWS-5-DDR-PLASMA-DENSITY-FULL-V1.0" && name == c!"SPREADSHEET"),
    .ok (i.dataSet == c!"ODY-M-GRS-5-ELEMENTS-V1.0" && name == c!"TABLE"),
    andThen (i.dataSet == c!"ULY-J-GAS-5-SKY-MAPS-V1.0" && name == c!"TABLE") (keyIs d.structure' c!"GASDATA.FMT"),
    .ok (contains i.dataSet c!"MRO-M-MCS-5-DDR" && !contains i.dataSet c!"V1.0" && name == c!"TABLE"),
    .ok (i.instrument == c!"CRISM" && i.productType == c!"ANCILLARY" && contains i.product c!"OBS" && name == c!"TABLE"),
    .ok (i.dataSet == c!"IHW-C-IRFCURV-3-EDR-HALLEY-V2.0" && name == c!"TABLE"),
    .ok ([c!"IHW-C-PPFLX-3-RDR-HALLEY-V1.0", c!"IHW-C-PPOL-3-RDR-HALLEY-V1.0", c!"IHW-C-PPSTOKE-3-RDR-HALLEY-V1.0",
      c!"IHW-C-PPMAG-3-RDR-HALLEY-V1.0", c!"IHW-C-MSNRDR-3-RDR-HALLEY-ETA-AQUAR-V1.0",
      c!"IHW-C-MSNRDR-3-RDR-HALLEY-ORIONID-V1.0", c!"IHW-C-MSNVIS-3-RDR-HALLEY-ETA-AQUAR-V1.0",
      c!"IHW-C-MSNVIS-3-RDR-HALLEY-ORIONID-V1.0", c!"IHW-C-IRFTAB-3-RDR-HALLEY-V1.0", c!"IHW-C-IRPOL-3-RDR-HALLEY-V1.0",
      c!"IHW-C-IRPHOT-3-RDR-HALLEY-V1.0"].contains i.dataSet && name == c!"TABLE"),
    .ok (i.dataSet == c!"VG1-J-LECP-4-SUMM-SECTOR-15MIN-V1.1" && name == c!"TABLE"),
    (match andThen (i.dataSet == c!"VG2-U-LECP-4-RDR-STEP-12.8MIN-V1.0") (keyIs d.format c!"ASCII") with
      | .ok true => .ok (name == c!"TABLE")
      | r => r),
    .ok (i.dataSet == c!"VG1-S-LECP-3-RDR-STEP-6MIN-V1.0" && name == c!"SPREADSHEET"),
    .ok (i.dataSet == c!"VL2-M-SEIS-5-RDR-V1.0" && [c!"TABLE", c!"SPREADSHEET"].contains name),
    .ok (contains i.dataSet c!"MEX-M-ASPERA3-2-EDR-IMA" && name == c!"SPREADSHEET"),
    .ok (matches' (lit c!"MER" ++ [oneOf c!"12"] ++ lit c!"-M-RSS-1-EDR-V1" ++ [dot] ++ lit c!"0") i.dataSet &&
      i.productType == c!"UHFD" && name == c!"SPREADSHEET"),
    .ok (i.dataSet == c!"PHX-M-MECA-4-NIRDR-V1.0" && i.instrument == c!"MECA_AFM" && contains name c!"TABLE"),
    .ok (i.host == c!"MARS EXPRESS" && i.instrument == c!"MRS" && hasAll i.product [c!"ODF", c!"L1B"] &&
      contains name c!"TABLE"),
    .ok (i.dataSet == c!"LRO-L-MRFLRO-1-PDR-V1.0" && contains i.product c!"HK_" && name == c!"SPREADSHEET"),
    .ok (i.host == c!"MARS SCIENCE LABORATORY" && i.instrument == c!"REMS" && contains name c!"TABLE" &&
      contains i.product c!"SP_____"),
    .ok (i.host == c!"MARS SCIENCE LABORATORY" && i.instrument == c!"REMS" && name == c!"REMS_SCIENCE_TABLE" &&
      contains i.dataSet c!"RDR"),
    .ok (hasAll i.dataSet [c!"ICE-C-", c!"-3-RDR-"] && contains file c!"TRAJ_ICE" && name == c!"TABLE"),
    .ok (i.host == c!"LUNAR RECONNAISSANCE ORBITER" && i.instrumentName == c!"RADIO SCIENCE SUBSYSTEM" &&
      name == c!"WEAREC_TABLE"),
    .ok (i.host == c!"LUNAR PROSPECTOR" && i.product == c!"OUTAGES" && name == c!"TABLE"),
    .ok (i.dataSet == c!"ODY-M-GRS-2-EDR-V1.0" && i.productType == c!"E_KERNEL" && contains (lower file) c!".txt"),
    .ok (vera i && i.productType == c!"UDR" && contains i.product c!".RAW"),
    .ok (i.instrument == c!"SPEDE" && contains i.fileName c!"PD_40_" && contains i.fileName c!".TAB")]

/-- checkers.py 378-574 `check_special_structure`: is there a special rule for the columns of a table or the elements of
an array. Simplifications: the rules of galileo.py 208-239 (which may still answer no) count as special; an object without
a definition, for which the code raises TypeError where a rule reads it, is one with no keys. -/
def specialStructure (i : Ids) (name file : Str) (d : Def) : Except PyErr Bool :=
  anyRule [
    .ok (i.dataSet == c!"CLEM1-L-RSS-5-BSR-V1.0" && name == c!"DATA_TABLE"),
    .ok (i.host == c!"MARS GLOBAL SURVEYOR" && i.instrument == c!"RSS" && i.productType == c!"ODF" && name == c!"ODF3B_TABLE"),
    .ok (i.host == c!"MARS GLOBAL SURVEYOR" && i.instrumentName == c!"RADIO SCIENCE SUBSYSTEM" && i.productType == c!"ECS"),
    .ok ((i.host == c!"CASSINI ORBITER" && i.instrument == c!"RPWS" && name == c!"TIME_SERIES") ||
      (i.host == c!"HUYGENS PROBE" && (contains file c!"HUY_DTWG_ENTRY_AERO" ||
        (contains i.fileName c!"HASI" && !contains i.fileName c!"PWA")))),
    .ok ((matches' (lit c!"GP-J-NMS-3-ENTRY-V1" ++ [dot] ++ lit c!"0") i.dataSet ||
      matches' (lit c!"GP-J-ASI-3-ENTRY-V1" ++ [dot] ++ lit c!"0") i.dataSet) && name == c!"TABLE"),
    .ok (i.dataSet == c!"GO-E-EPD-2-SAMP-PAD-V1.0" && i.product == c!"E1PAD_7.TAB" && name == c!"TIME_SERIES"),
    .ok (contains i.dataSet c!"VEGA" && contains i.dataSet c!"-C-DUCMA-3-RDR-HALLEY-V1.0" && name == c!"TABLE"),
    .ok ((i.dataSet == c!"GIO-C-PIA-3-RDR-HALLEY-V1.0" || matches' (lit c!"VEGA" ++ [dot] ++ lit c!"-C-PUMA") i.dataSet) &&
      name == c!"ARRAY"),
    .ok ((matches' (lit c!"MRO-M-MCS-4-RDR-V1" ++ [dot] ++ lit c!"0") i.dataSet ||
      matches' (lit c!"MRO-M-MCS-2-EDR-V1" ++ [dot] ++ lit c!"0") i.dataSet) && name == c!"TABLE"),
    andThen (i.dataSet == c!"VG2-SS-PLS-4-SUMM-1HR-AVG-V1.0" && name == c!"TABLE") (keyIs d.structure' c!"VGR_PLS_HR_2017.FMT"),
    .ok (contains i.dataSet c!"IHW-C-SPEC-" && name == c!"SPECTRUM"),
    andThen (i.dataSet == c!"PHX-M-MECA-2-NIEDR-V1.0" && name == c!"TBL_TABLE") (keyIs d.container c!"TBL_0_STATE_DATA.FMT"),
    .ok (i.dataSet == c!"PHX-M-MECA-4-NIRDR-V1.0" && i.instrument == c!"MECA_AFM" && contains name c!"HEADER_TABLE"),
    andThen (i.dataSet == c!"PHX-M-TEGA-2-LEDEDR-V1.0" && name == c!"TIME_SERIES") (keyIs d.structure' c!"TEGA_LED.FMT"),
    andThen (i.dataSet == c!"PHX-M-TEGA-4-SCRDR-V1.0" && name == c!"TIME_SERIES") (keyIs d.structure' c!"TEGA_SCRDR.FMT"),
    .ok (i.dataSet == c!"MEX-SUN-ASPERA3-4-SWM-V1.0" && name == c!"TABLE"),
    .ok (contains i.dataSet c!"-MIDAS-3-" && contains i.product c!"SPS" && name == c!"TIME_SERIES"),
    .ok (contains i.dataSet c!"-MIDAS-3-" && contains i.product c!"FSC" && name == c!"FREQUENCY_SERIES"),
    .ok (contains i.dataSetName c!"ROSETTA" && contains i.dataSetName c!"CONSERT" && contains name c!"TABLE" &&
      (startsWith name c!"I_" || startsWith name c!"Q_") && !contains i.dataSet c!"GRNDBENCH"),
    .ok (i.spacecraft == c!"GALILEO ORBITER" &&
      [c!"SOLID_STATE_IMAGING", c!"SOLID STATE IMAGING SYSTEM"].contains i.instrumentName),
    .ok (i.dataSet == c!"ODY-M-GRS-2-EDR-V1.0" && i.productType == c!"E_KERNEL" && contains (lower file) c!".txt"),
    .ok (vera i && i.productType == c!"UDR" && !contains file c!"ODF" && !contains file c!"TNF" && !contains file c!"RSR")]

/-! ### where an HDU is -/

/-- an HDU of a FITS file: its name, where its header and its data start, and how long its data are -/
structure Hdu where
  extname : Str
  hdrLoc : Int
  datLoc : Int
  datSpan : Int

/-- `hdulist.fileinfo(name)`: the first HDU of that name, in any case -/
def hduNamed (hs : List Hdu) (name : Str) : Except PyErr Hdu :=
  match hs.find? (fun h => upper h.extname == upper name) with
  | none => .error .keyError
  | some h => .ok h

/-- `hdulist.fileinfo(index)` -/
def hduAt (hs : List Hdu) (n : Nat) : Except PyErr Hdu :=
  match hs[n]? with
  | none => .error .indexError
  | some h => .ok h

/-- the start of the header or of the data, by the name of the object -/
def partOf (name : Str) (h : Hdu) : Int := if contains name c!"HEADER" then h.hdrLoc else h.datLoc

/-- juno.py 65-83 -/
def uvsRdr : List (Str × Nat) :=
  [(c!"CALIBRATED_SPECTRAL_HEADER", 0), (c!"CALIBRATED_SPECTRAL_IMAGE", 0), (c!"ACQUISITION_LIST_HEADER", 1),
   (c!"ACQUISITION_LIST_TABLE", 1), (c!"CALIBRATED_PHOTON_LIST_HEADER", 2), (c!"CALIBRATED_PHOTON_LIST_TABLE", 2),
   (c!"ANCILLARY_DATA_HEADER", 3), (c!"ANCILLARY_DATA_TABLE", 3), (c!"CALIBRATED_ANALOG_COUNT_RATE_HEADER", 4),
   (c!"CALIBRATED_ANALOG_COUNT_RATE_TABLE", 4), (c!"CALIBRATED_DIGITAL_COUNT_RATE_HEADER", 5),
   (c!"CALIBRATED_DIGITAL_COUNT_RATE_TABLE", 5), (c!"HOUSEKEEPING_HEADER", 6), (c!"HOUSEKEEPING_TABLE", 6),
   (c!"WAVELENGTH_LOOKUP_HEADER", 7), (c!"WAVELENGTH_LOOKUP_IMAGE", 7), (c!"MASK_INFORMATION_HEADER", 8),
   (c!"MASK_INFORMATION_TABLE", 8)]

/-- juno.py 114-138 -/
def uvsEdr : List (Str × Nat) :=
  [(c!"SPECTRAL_VS_SPATIAL_HEADER", 0), (c!"SPECTRAL_VS_SPATIAL_IMAGE", 0), (c!"SPATIAL_VS_TIME_HEADER", 1),
   (c!"SPATIAL_VS_TIME_QUBE", 1), (c!"FRAME_LIST_HEADER", 2), (c!"FRAME_LIST_TABLE", 2),
   (c!"SCAN_MIRROR_POSITIONS_HEADER", 3), (c!"SCAN_MIRROR_POSITIONS_TABLE", 3), (c!"RAW_FRAME_HEADER", 4),
   (c!"RAW_FRAME_TABLE", 4), (c!"ANALOG_COUNT_RATE_HEADER", 5), (c!"ANALOG_COUNT_RATE_TABLE", 5),
   (c!"DIGITAL_COUNT_RATE_HEADER", 6), (c!"DIGITAL_COUNT_RATE_TABLE", 6), (c!"PULSE_HEIGHT_DISTRIBUTION_LA_HEADER", 7),
   (c!"PULSE_HEIGHT_DISTRIBUTION_LA_QUBE", 7), (c!"PULSE_HEIGHT_DISTRIBUTION_STELLAR_HEADER", 8),
   (c!"PULSE_HEIGHT_DISTRIBUTION_STELLAR_QUBE", 8), (c!"PULSE_HEIGHT_DISTRIBUTION_STIM_HEADER", 9),
   (c!"PULSE_HEIGHT_DISTRIBUTION_STIM_QUBE", 9), (c!"HOUSEKEEPING_HEADER", 10), (c!"HOUSEKEEPING_TABLE", 10),
   (c!"PARAMETER_LIST_HEADER", 11), (c!"PARAMETER_LIST_TABLE", 11)]

/-- juno.py 62-107, 110-162: `None` when the name is not in the list or the HDU is not in the file -/
def uvsStart (index : List (Str × Nat)) (name : Str) (hs : List Hdu) : Option Int :=
  match index.lookup name with
  | none => none
  | some n => match hs[n]? with
    | none => none
    | some h => some (partOf name h)

/-- lro.py 142-155: which HDU of a LAMP EDR a table is in -/
def lampEdrName (name : Str) : Option Str :=
  [(c!"ACQUISITION_LIST_TABLE", c!"Acquisition List"), (c!"FRAME_DATA_TABLE", c!"Raw Frame Data"),
   (c!"CALCULATED_COUNTRATE_TABLE", c!"Calculated Countrate"), (c!"LTS_DATA_TABLE", c!"LTS Data"),
   (c!"HOUSEKEEPING_TABLE", c!"Housekeeping Data")].lookup name

/-- lro.py 136-164 `lamp_edr_hdu_exceptions` (`DoesNotExistError` is written as `ioError`) -/
def lampEdr (name : Str) (hs : List Hdu) : Except PyErr (Option (Option Int)) :=
  match lampEdrName name with
  | none => .ok none
  | some x => match hduNamed hs x with
    | .error e => .error e
    | .ok h => if h.datSpan = 0 then .error .ioError else .ok none

/-- lro.py 174-199: which HDU of a LAMP RDR an object is in -/
def lampRdrName (name : Str) (hs : List Hdu) : Option Str :=
  if contains name c!"ACQUISITION_LIST" then some c!"Acquisition List"
  else if contains name c!"CAL_PIXELLIST_DATA" then some c!"Calibrated Pixel List Mode Data"
  else if contains name c!"ANCILLARY_DATA" then some c!"Ancillary Data"
  else if contains name c!"CAL_HISTOGRAM_" then some c!"Calibrated Histogram Mode Data"
  else if contains name c!"CAL_CALCULATED_COUNTRATE" then
    (match hduNamed hs c!"Calculated Countrate" with
      | .ok _ => some c!"Calculated Countrate"
      | .error _ => some c!"Reduced Count Rate")
  else if contains name c!"LTS_DATA" then some c!"LTS Data"
  else if contains name c!"HOUSEKEEPING" then some c!"Housekeeping Data"
  else if contains name c!"WAVELENGTH_LOOKUP" then some c!"Wavelength Lookup Image"
  else none

/-- lro.py 166-209 `lamp_rdr_hdu_start_byte` -/
def lampRdr (name : Str) (hs : List Hdu) : Except PyErr (Option (Option Int)) :=
  match lampRdrName name hs with
  | none => .ok none
  | some x => match hduNamed hs x with
    | .error e => .error e
    | .ok h =>
      if contains name c!"HEADER" then .ok (some (some h.hdrLoc))
      else if h.datSpan = 0 then .error .ioError
      else .ok (some (some h.datLoc))

/-- checkers.py 1226-1275 `check_special_fits_start_byte`. `some none`: the answer is `None` (juno.py). -/
def specialHdu (i : Ids) (name : Str) (hs : List Hdu) : Except PyErr (Option (Option Int)) :=
  if i.host == c!"DAWN" && contains i.dataSet c!"FC2" && name == c!"HISTORY" then .error .ioError
  else if startsWith i.dataSet c!"HST-S-WFPC2-3-RPX" && contains name c!"IMAGE" then
    if contains name c!"HEADER" then .ok (some (some 0)) else (hduAt hs 0).map (fun h => some (some h.datLoc))
  else if i.instrument == c!"HRIV" && i.productType == c!"RADIANCE_DECONVOLVED" && startsWith name c!"EXT_MASK" then
    (hduNamed hs c!"MASK").map (fun h => some (some (partOf name h)))
  else if startsWith i.dataSet c!"MSGR-H-MDIS-6-CAL" then
    if ¬ (name = c!"IMAGE" ∨ name = c!"HEADER") then .error .notImplemented
    else if name = c!"HEADER" then .ok (some (some 0))
    else (hduAt hs 0).map (fun h => some (some h.datLoc))
  else if i.dataSet = c!"MSSSO-J-CASPIR-3-RDR-SL9-STDS-V1.0" then
    if contains name c!"HEADER" then .ok (some (some 0)) else (hduAt hs 0).map (fun h => some (some h.datLoc))
  else if contains i.dataSet c!"MEX-M-VMC-3-RDR" then (hduAt hs 1).map (fun h => some (some h.datLoc))
  else if i.dataSet == c!"LRO-L-LAMP-2-EDR-V1.0" && contains name c!"TABLE" then lampEdr name hs
  else if i.dataSet = c!"LRO-L-LAMP-3-RDR-V1.0" then lampRdr name hs
  else if i.productType == c!"RDR" && contains i.dataSet c!"JNO-J-UVS-3-RDR-" then .ok (some (uvsStart uvsRdr name hs))
  else if i.productType == c!"EDR" && contains i.dataSet c!"JNO-J-UVS-2-EDR-" then .ok (some (uvsStart uvsEdr name hs))
  else .ok none

end Verif.Special
