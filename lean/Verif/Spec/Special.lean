/-
Specification of the special cases: which products have none.
-/
import Verif.Model.SpecialBlock

namespace Verif.Special.Spec
open Verif.Py Verif.Special

/-- what the names of the data sets with special cases have in them: a mission, or a mission and what it observed -/
def missions : List Str :=
  [c!"BUGLAB-", c!"CLEM1-", c!"CO-", c!"DIF-", c!"ESO1M-", c!"ESO22M-", c!"GIO-", c!"GO-", c!"GP-", c!"HST-", c!"ICE-",
   c!"IHW-", c!"IRTF-", c!"IUE-", c!"JNO-", c!"LRO-", c!"M9-", c!"MCD27M-", c!"MER", c!"MEX-", c!"MGN-", c!"MGS-",
   c!"-MIDAS-", c!"MRO-", c!"MSGR-", c!"MSL-", c!"MSSSO-", c!"MSX-", c!"NH-", c!"ODY-", c!"PAL200-", c!"PHX-", c!"PVO-",
   c!"SLN-", c!"ULY-", c!"VEGA", c!"VG1-", c!"VG2-", c!"VL2-", c!"WFF-"]

/-- the hosts with special cases -/
def hosts : List Str :=
  [c!"CASSINI ORBITER", c!"CASSINI_ORBITER", c!"DAWN", c!"HUYGENS PROBE", c!"LUNAR PROSPECTOR",
   c!"LUNAR RECONNAISSANCE ORBITER", c!"MARS EXPRESS", c!"MARS GLOBAL SURVEYOR", c!"MARS SCIENCE LABORATORY",
   c!"VENUS EXPRESS"]

/-- the spacecraft with special cases -/
def spacecraft : List Str :=
  [c!"CE1", c!"Chang'E-3 Rover", c!"GALILEO ORBITER", c!"GALILEO_ORBITER", c!"MAGELLAN", c!"MARS_GLOBAL_SURVEYOR"]

/-- the instruments with special cases, by INSTRUMENT_ID -/
def instruments : List Str :=
  [c!"APXS", c!"CHEMIN", c!"CRAT", c!"CRISM", c!"DLRE", c!"HRIV", c!"LAMP", c!"LROC", c!"MARSIS", c!"NIMS", c!"SPEDE",
   c!"THEMIS"]

/-- the instruments with special cases, by INSTRUMENT_NAME -/
def instrumentNames : List Str :=
  [c!"CHEMISTRY CAMERA REMOTE MICRO-IMAGER", c!"DESCENT IMAGER SPECTRAL RADIOMETER", c!"PLASMA WAVE RECEIVER",
   c!"ROSETTA PLASMA CONSORTIUM - MUTUAL IMPEDANCE PROBE", c!"TRIAXIAL FLUXGATE MAGNETOMETER"]

/-- words in FILE_NAME, in the products of any mission, that make a product special -/
def words : List Str := [c!"STRIP", c!"VISIBL", c!"IMAGE", c!"IR_", c!"TIME", c!"SUN", c!"SOLAR"]

/-- a product of none of the missions, hosts, spacecraft and instruments with special cases, whose file name has none of
the seven words in it -/
structure Ordinary (i : Ids) : Prop where
  dataSet : ∀ m ∈ missions, ¬ m <:+: i.dataSet
  rosetta : ¬ c!"ROSETTA" <:+: i.dataSetName
  host : i.host ∉ hosts
  spacecraft : i.spacecraft ∉ Spec.spacecraft
  instrument : i.instrument ∉ instruments
  instrumentName : i.instrumentName ∉ instrumentNames
  fileName : ∀ w ∈ words, ¬ w <:+: i.fileName

/-- Voyager 2 PRA tables of Saturn, Neptune and Uranus -/
def sweeps : List Str :=
  [c!"VG2-S-PRA-3-RDR-LOWBAND-6SEC-V1.0", c!"VG2-N-PRA-3-RDR-LOWBAND-6SEC-V1.0", c!"VG2-U-PRA-3-RDR-LOWBAND-6SEC-V1.0"]

/-- The objects whose definitions change each time they are used: images of WFF/ATM products whose PRODUCT_ID begins with S,
the tables of some wet chemistry products of Phoenix, and the PRA tables. -/
def Moving (i : Ids) (name : Str) : Prop :=
  (i.dataSet = c!"WFF-E-ATM-1/5-V1.0" ∧ c!"S" <+: i.product ∧ name = c!"IMAGE") ∨
  (i.dataSet = c!"PHX-M-MECA-2-NIEDR-V1.0" ∧ c!"MECA-EM1" <+: i.productType ∧ name = c!"WCHEM_TABLE") ∨
  (i.dataSet ∈ sweeps ∧ name = c!"TABLE")

/-- by how many bytes a column of that number is moved -/
def shift (number : Int) : Int := if number = 13 then 1 else if number = 14 then 2 else 0

/-- What single values of a definition are replaced by: for these data sets, products and objects, these values. -/
inductive Replaces (i : Ids) : Str → List (Str × Locate.Val) → Prop
  | miniRf : i.dataSet = c!"LRO-L-MRFLRO-5-GLOBAL-MOSAIC-V1.0" → c!"GLOBAL_S4_32PPD" <:+: i.product →
      Replaces i c!"IMAGE" [(c!"LINES", .int 5760), (c!"LINE_SAMPLES", .int 11520)]
  | orpa : i.dataSet = c!"PVO-V-ORPA-5-ELE/ION/PHOTO/UADS-V1.0" → c!"ORPA_LOW_RES" <:+: i.product →
      Replaces i c!"TABLE" [(c!"ROW_BYTES", .int 243)]
  | oims {n : Int} : i.dataSet = c!"PVO-V-OIMS-4-IONDENSITY-12S-V1.0" → i.fileRecords = .int n →
      Replaces i c!"TABLE" [(c!"ROWS", .int n)]
  | mag : i.dataSet = c!"VG2-N-MAG-4-RDR-HGCOORDS-12SEC-V1.0" → i.standardProduct = c!"ASCII DATA" →
      i.instrumentName ≠ c!"PLASMA WAVE RECEIVER" → Replaces i c!"TABLE" [(c!"ROW_BYTES", .int 145)]
  | ionbr : i.dataSet = c!"VG2-U-PLS-5-SUMM-IONBR-48SEC-V1.0" → i.product = c!"SUMRY.DAT" →
      i.instrumentName ≠ c!"PLASMA WAVE RECEIVER" → Replaces i c!"TIME_SERIES" [(c!"^STRUCTURE", .str c!"SUMRY.FMT")]
  | epd {n : Int} : i.dataSet = c!"GO-E-EPD-4-SUMM-SAMP-V1.0" → c!"E1_" <:+: i.product → i.recordBytes = .int n →
      Replaces i c!"TIME_SERIES" [(c!"ROW_BYTES", .int n)]
  | pwsB : i.dataSet = c!"GO-J-PWS-4-SUMM-SA60S-V1.0" → i.instrumentName = c!"PLASMA WAVE RECEIVER" → c!"B.TAB" <:+: i.product →
      ¬ c!"E.TAB" <:+: i.product → Replaces i c!"TABLE" [(c!"ROW_BYTES", .int 366)]
  | pwsE : i.dataSet = c!"GO-J-PWS-4-SUMM-SA60S-V1.0" → i.instrumentName = c!"PLASMA WAVE RECEIVER" → c!"E.TAB" <:+: i.product →
      ¬ c!"B.TAB" <:+: i.product → Replaces i c!"TABLE" [(c!"ROW_BYTES", .int 516)]

/-- How long special tables are: for these data sets, products and objects, this many bytes. `rows`, `rowBytes`: what the
object's definition says; `size`: of the file. -/
inductive LongTable (i : Ids) (rows rowBytes size : Int) : Str → Int → Prop
  | marsis {n : Int} {name : Str} : i.instrument = c!"MARSIS" → c!" TEC " <:+: i.dataSetName → i.fileRecords = .int n →
      LongTable i rows rowBytes size name (n * 143)
  | rpws {n r : Int} : i.instrument ≠ c!"MARSIS" → i.dataSet = c!"CO-V/E/J/S/SS-RPWS-2-REFDR-ALL-V1.0" → i.productType = c!"ANCILLARY" →
      i.fileRecords = .int n → i.rowBytes = .int r → LongTable i rows rowBytes size c!"RPWS_TIME_ORDERED_TABLE" (n * r)
  | tracking : i.instrument ≠ c!"MARSIS" → i.dataSet = c!"LRO-L-RSS-1-TRACKING-V1.0" →
      LongTable i rows rowBytes size c!"WEAREC_TABLE" (rows * (rowBytes + 1))
  | occultation {d : Str} : d ∈ [c!"ESO1M-SR-APPH-4-OCC-V1.0", c!"ESO22M-SR-APPH-4-OCC-V1.0", c!"IRTF-SR-URAC-4-OCC-V1.0",
        c!"PAL200-SR-CIRC-4-OCC-V1.0", c!"MCD27M-SR-IIRAR-4-OCC-V1.0"] → i.instrument ≠ c!"MARSIS" → i.dataSet = d → c!"GEOM" <:+: i.product →
      i.host ≠ c!"MARS EXPRESS" → LongTable i rows rowBytes size c!"SERIES" (rows * (rowBytes + 2))
  | crism {r : Int} : i.instrument ≠ c!"MARSIS" → i.dataSet = c!"MRO-M-CRISM-5-RDR-MULTISPECTRAL-V1.0" → c!"MRRWV" <:+: i.product →
      i.recordBytes = .int r → i.host ≠ c!"MARS EXPRESS" → LongTable i rows rowBytes size c!"TABLE" (rows * r)
  | spirit : i.instrument ≠ c!"MARSIS" → i.dataSet = c!"MSX-L-SPIRIT3-2/4-V1.0" → i.host ≠ c!"MARS EXPRESS" →
      LongTable i rows rowBytes size c!"ENVI_HEADER" size

end Verif.Special.Spec
