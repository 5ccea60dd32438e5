/-
Specification of the special cases: where objects start, in which HDU they are, and what their samples are.
-/
import Verif.Spec.Special

namespace Verif.Special.Spec
open Verif.Py Verif.Locate Verif.Special

/-- Where special objects start: for these instruments, data sets and objects, at this byte. `p`: the object's name, file and
pointer. -/
inductive StartsAt (i : Ids) (p : Ptr) : Int → Prop
  | histogram : i.instrument = c!"CHEMIN" → p.name = c!"HISTOGRAM" → StartsAt i p 300
  | housekeeping : i.instrument = c!"CHEMIN" → p.name = c!"CHMN_HSK_HEADER_TABLE" → StartsAt i p 0
  /-- the pointer is a text `(file,n)`: record `n`, counted from one -/
  | clementine {file : Str} {n : Nat} {r : Int} : i.instrument ≠ c!"CHEMIN" → i.dataSet = c!"CLEM1-L-RSS-5-BSR-V1.0" →
      (c!"HEADER_TABLE" <+: p.name ∨ c!"DATA_TABLE" <+: p.name) → (∀ c ∈ file, c ∉ [',', '(', '|', ')']) →
      p.pointer = .item (.val (.str (c!"(" ++ file ++ c!"," ++ Nat.toDigits 10 n ++ c!")"))) → i.recordBytes = .int r →
      StartsAt i p (((n : Int) - 1) * r)
  /-- FILE_RECORDS is the number of bytes, or more: so is the number in the pointer -/
  | themis {n k : Int} {xs : List Item} : i.instrument = c!"THEMIS" → i.dataSet ≠ c!"CLEM1-L-RSS-5-BSR-V1.0" → p.name = c!"QUBE" →
      i.fileRecords = .int n → (p.qubeSize : Int) ≤ n → p.pointer = .seq (xs ++ [.val (.int k)]) → StartsAt i p (k - 1)
  /-- one record before the one of the pointer, between two times -/
  | iss {t : ℚ} {file : Item} {n r : Int} : i.instrument ∉ [c!"CHEMIN", c!"THEMIS"] →
      i.dataSet = c!"CO-E/V/J-ISSNA/ISSWA-2-EDR-V1.0" → p.clock = .ok t → 1359362956 ≤ t → t ≤ 1363539029 →
      p.name ≠ c!"IMAGE_HEADER" → p.pointer = .seq [file, .val (.int n)] → i.recordBytes = .int r → StartsAt i p (r * (n - 2))
  | crater : i.instrument = c!"CRAT" → i.dataSet ∉ [c!"CLEM1-L-RSS-5-BSR-V1.0", c!"CO-E/V/J-ISSNA/ISSWA-2-EDR-V1.0"] →
      i.productType = c!"EDR" → p.name = c!"TABLE_1" → StartsAt i p 64
  /-- the rows are the end of the file -/
  | opacity {rows rowBytes : Int} : i.instrument ∉ [c!"CHEMIN", c!"THEMIS", c!"CRAT"] →
      i.dataSet = c!"PHX-M-SSI-5-ATMOS-OPACITY-V1.0" → c!"TABLE" <:+: p.name → i.rows = .int rows → i.rowBytes = .int rowBytes →
      StartsAt i p ((p.fileSize : Int) - rows * rowBytes)
  /-- the number in the pointer is of bytes -/
  | wetCell {k : Int} {xs : List Item} : i.instrument ∉ [c!"CHEMIN", c!"THEMIS", c!"CRAT"] →
      i.dataSet = c!"PHX-M-MECA-4-NIRDR-V1.0" → i.productType ∈ [c!"MECA_WCL_CP", c!"MECA_WCL_CV"] → c!"TABLE" <:+: p.name →
      p.pointer = .seq (xs ++ [.val (.int k)]) → StartsAt i p (k - 1)
  | camera : i.instrument ∈ [c!"MAHLI", c!"MAST_RIGHT", c!"MAST_LEFT", c!"MARDI"] → i.host = c!"MARS SCIENCE LABORATORY" →
      i.dataSet = c!"MSL-M-" ++ i.instrument ++ c!"-2-EDR-IMG-V1.0" → StartsAt i p 64

/-- not a DISR product, nor one that is taken for one by its FILE_NAME (C101) -/
def NotDisr (i : Ids) : Prop :=
  i.instrumentName ≠ c!"DESCENT IMAGER SPECTRAL RADIOMETER" ∧ ∀ w ∈ words, ¬ w <:+: i.fileName

/-- the byte at which the header (for an object with HEADER in its name) or the data (for another) of an HDU start -/
def Part (name : Str) (h : Hdu) (n : Int) : Prop :=
  (c!"HEADER" <:+: name ∧ n = h.hdrLoc) ∨ (¬ c!"HEADER" <:+: name ∧ n = h.datLoc)

/-- the HDUs of a Juno UVS RDR in their order: for each, the object in it and whether that is an image or a table -/
def uvsRdrHdus : List (Str × Str) :=
  [(c!"CALIBRATED_SPECTRAL", c!"IMAGE"), (c!"ACQUISITION_LIST", c!"TABLE"), (c!"CALIBRATED_PHOTON_LIST", c!"TABLE"),
   (c!"ANCILLARY_DATA", c!"TABLE"), (c!"CALIBRATED_ANALOG_COUNT_RATE", c!"TABLE"),
   (c!"CALIBRATED_DIGITAL_COUNT_RATE", c!"TABLE"), (c!"HOUSEKEEPING", c!"TABLE"), (c!"WAVELENGTH_LOOKUP", c!"IMAGE"),
   (c!"MASK_INFORMATION", c!"TABLE")]

/-- those of an EDR -/
def uvsEdrHdus : List (Str × Str) :=
  [(c!"SPECTRAL_VS_SPATIAL", c!"IMAGE"), (c!"SPATIAL_VS_TIME", c!"QUBE"), (c!"FRAME_LIST", c!"TABLE"),
   (c!"SCAN_MIRROR_POSITIONS", c!"TABLE"), (c!"RAW_FRAME", c!"TABLE"), (c!"ANALOG_COUNT_RATE", c!"TABLE"),
   (c!"DIGITAL_COUNT_RATE", c!"TABLE"), (c!"PULSE_HEIGHT_DISTRIBUTION_LA", c!"QUBE"),
   (c!"PULSE_HEIGHT_DISTRIBUTION_STELLAR", c!"QUBE"), (c!"PULSE_HEIGHT_DISTRIBUTION_STIM", c!"QUBE"),
   (c!"HOUSEKEEPING", c!"TABLE"), (c!"PARAMETER_LIST", c!"TABLE")]

/-- In which HDU special objects of FITS files are, by its number. -/
inductive InHdu (i : Ids) (name : Str) : Nat → Prop
  | rpx : c!"HST-S-WFPC2-3-RPX" <+: i.dataSet → c!"IMAGE" <:+: name → InHdu i name 0
  | mdis : c!"MSGR-H-MDIS-6-CAL" <+: i.dataSet → name ∈ [c!"IMAGE", c!"HEADER"] → InHdu i name 0
  | caspir : i.dataSet = c!"MSSSO-J-CASPIR-3-RDR-SL9-STDS-V1.0" → i.instrument ≠ c!"HRIV" → InHdu i name 0
  | uvsRdr {x k : Str} {n : Nat} : i.dataSet = c!"JNO-J-UVS-3-RDR-V1.0" → i.productType = c!"RDR" →
      uvsRdrHdus[n]? = some (x, k) → (name = x ++ c!"_" ++ k ∨ name = x ++ c!"_HEADER") → InHdu i name n
  | uvsEdr {x k : Str} {n : Nat} : i.dataSet = c!"JNO-J-UVS-2-EDR-V1.0" → i.productType = c!"EDR" →
      uvsEdrHdus[n]? = some (x, k) → (name = x ++ c!"_" ++ k ∨ name = x ++ c!"_HEADER") → InHdu i name n

/-- what the names of the objects of a LAMP RDR have in them and the names of the HDUs they are in -/
def lampHdus : List (Str × Str) :=
  [(c!"ACQUISITION_LIST", c!"Acquisition List"), (c!"CAL_PIXELLIST_DATA", c!"Calibrated Pixel List Mode Data"),
   (c!"ANCILLARY_DATA", c!"Ancillary Data"), (c!"CAL_HISTOGRAM_", c!"Calibrated Histogram Mode Data"),
   (c!"LTS_DATA", c!"LTS Data"), (c!"HOUSEKEEPING", c!"Housekeeping Data"), (c!"WAVELENGTH_LOOKUP", c!"Wavelength Lookup Image")]

/-- What types of samples are read as others: for these products, a type in the label and the type it is read as. -/
inductive ReadAs (i : Ids) : Str → Str → Prop
  | craterBits : i.dataSet = c!"LRO-L-CRAT-2-EDR-RAWDATA-V1.0" → i.instrument ≠ c!"LROC" →
      ReadAs i c!"BIT_STRING" c!"MSB_BIT_STRING"
  | craterNone {t : Str} : i.dataSet = c!"LRO-L-CRAT-2-EDR-RAWDATA-V1.0" → i.instrument ≠ c!"LROC" → c!"N/A" <:+: t →
      ReadAs i t c!"MSB_UNSIGNED_INTEGER"
  | nimsBits : i.dataSet = c!"GO-V/E-NIMS-2-EDR-V1.0" → i.spacecraft = c!"GALILEO_ORBITER" → i.instrument ≠ c!"LROC" →
      ReadAs i c!"BIT_STRING" c!"LSB_BIT_STRING"
  | nimsNone {t : Str} : i.dataSet = c!"GO-V/E-NIMS-2-EDR-V1.0" → i.spacecraft = c!"GALILEO_ORBITER" → i.instrument ≠ c!"LROC" →
      c!"N/A" <:+: t → ReadAs i t c!"CHARACTER"
  | ulysses : i.dataSet = c!"ULY-J-EPAC-4-SUMM-PHA-24HR-V1.0" → c!"BIN" <:+ i.product → i.instrument ≠ c!"LROC" →
      i.spacecraft ≠ c!"GALILEO_ORBITER" → ReadAs i c!"BIT_STRING" c!"MSB_BIT_STRING"

/-- a data set of images of the Cassini ISS: calibration, or any sequence of the letters S, E, V, J with slashes and dashes
before `ISSNA/ISSWA-2` -/
def IssSet (d : Str) : Prop :=
  (∃ r, d = c!"CO-CAL-ISS" ++ r) ∨
  ∃ m r, d = c!"CO-" ++ m ++ c!"ISSNA/ISSWA-2" ++ r ∧ m ≠ [] ∧ ∀ c ∈ m, c ∈ c!"S/EVJ-"

/-- objects in files beside the label, with its name and this extension -/
inductive BesideLabel (i : Ids) : Str → Str → Prop
  | dust : c!"CO-D-CDA" <+: i.dataSet → i.spacecraft ≠ c!"MAGELLAN" → BesideLabel i c!"TABLE" c!".TAB"
  | newHorizons : i.dataSet ∈ [c!"NH-P-PEPSSI-4-PLASMA-V1.0", c!"NH-X-SWAP-5-DERIVED-SOLARWIND-V1.0",
      c!"NH-P/PSA-LORRI/ALICE/REX-5-ATMOS-V1.0"] → i.instrument ≠ c!"THEMIS" → BesideLabel i c!"SPREADSHEET" c!".csv"
  | jitter : i.dataSet = c!"VG2-SR/UR/NR-PPS-2/4-OCC-V1.0" → i.productType = c!"JITTER" → i.instrument ≠ c!"THEMIS" →
      BesideLabel i c!"SERIES" c!".TAB"

/-- tables with readers of their own: the data set and the name -/
def ownReaders : List (Str × Str) :=
  [(c!"CO-S-MIMI-4-CHEMS-CALIB-V1.0", c!"SPREADSHEET"), (c!"CO-S-MIMI-4-LEMMS-CALIB-V1.0", c!"SPREADSHEET"),
   (c!"CO-S-MIMI-4-INCA-CALIB-V1.0", c!"SPREADSHEET"), (c!"CO-E/J/S/SW-MIMI-2-LEMMS-UNCALIB-V1.0", c!"SPREADSHEET"),
   (c!"CO-SSA-RADAR-3-ABDR-SUMMARY-V1.0", c!"SPREADSHEET"), (c!"MSL-M-ROVER-6-RDR-PLACES-V1.0", c!"SPREADSHEET"),
   (c!"GO-J-PWS-5-DDR-PLASMA-DENSITY-FULL-V1.0", c!"SPREADSHEET"), (c!"ODY-M-GRS-5-ELEMENTS-V1.0", c!"TABLE"),
   (c!"IHW-C-IRFCURV-3-EDR-HALLEY-V2.0", c!"TABLE"), (c!"IHW-C-PPFLX-3-RDR-HALLEY-V1.0", c!"TABLE"),
   (c!"IHW-C-PPOL-3-RDR-HALLEY-V1.0", c!"TABLE"), (c!"IHW-C-PPSTOKE-3-RDR-HALLEY-V1.0", c!"TABLE"),
   (c!"IHW-C-PPMAG-3-RDR-HALLEY-V1.0", c!"TABLE"), (c!"IHW-C-IRPOL-3-RDR-HALLEY-V1.0", c!"TABLE"),
   (c!"IHW-C-IRPHOT-3-RDR-HALLEY-V1.0", c!"TABLE"), (c!"IHW-C-IRFTAB-3-RDR-HALLEY-V1.0", c!"TABLE"),
   (c!"VG1-J-LECP-4-SUMM-SECTOR-15MIN-V1.1", c!"TABLE"), (c!"VG1-S-LECP-3-RDR-STEP-6MIN-V1.0", c!"SPREADSHEET"),
   (c!"VL2-M-SEIS-5-RDR-V1.0", c!"TABLE"), (c!"VL2-M-SEIS-5-RDR-V1.0", c!"SPREADSHEET")]

/-- objects with rules of their own for their columns or elements -/
def ownColumns : List (Str × Str) :=
  [(c!"CLEM1-L-RSS-5-BSR-V1.0", c!"DATA_TABLE"), (c!"GP-J-NMS-3-ENTRY-V1.0", c!"TABLE"), (c!"GP-J-ASI-3-ENTRY-V1.0", c!"TABLE"),
   (c!"VEGA1-C-DUCMA-3-RDR-HALLEY-V1.0", c!"TABLE"), (c!"VEGA2-C-DUCMA-3-RDR-HALLEY-V1.0", c!"TABLE"),
   (c!"GIO-C-PIA-3-RDR-HALLEY-V1.0", c!"ARRAY"), (c!"VEGA1-C-PUMA-2-RDR-HALLEY-V1.0", c!"ARRAY"),
   (c!"MRO-M-MCS-4-RDR-V1.0", c!"TABLE"), (c!"MRO-M-MCS-2-EDR-V1.0", c!"TABLE"), (c!"MEX-SUN-ASPERA3-4-SWM-V1.0", c!"TABLE")]

/-- objects that are not loaded -/
def notLoaded : List (Str × Str) :=
  [(c!"ODY-M-THM-5-VISGEO-V2.0", c!"HEADER"), (c!"ODY-M-THM-5-VISGEO-V2.0", c!"HISTORY"),
   (c!"BUGLAB-L-BUG-4-APOLLO-SAMPLES-V1.0", c!"HEADER"), (c!"MSL-M-APXS-4/5-RDR-V1.0", c!"HEADER"),
   (c!"SLN-L-PACE-3-PBF1-V3.0", c!"TIME_SERIES"), (c!"SLN-L-TC-4-DEM-ORTHO-V1.0", c!"QA_FILENAME"),
   (c!"SLN-L-GRS-3-ENG-SPECTRUM-V1.0", c!"TABLE")]

end Verif.Special.Spec
