/-
Products with no special case are read by the general rules.
-/
import Verif.Spec.Special
import Verif.Props.Datatypes
import Verif.Lemmas.Str

namespace Verif.Special
open Verif.Py Verif.Locate Verif.Special.Spec

theorem contains_trans {s u m : Str} (h1 : contains s u = true) (h2 : contains u m = true) : m <:+: s :=
  ((Datatypes.contains_iff u m).1 h2).trans ((Datatypes.contains_iff s u).1 h1)

theorem contains_of_startsWith {s u : Str} (h : startsWith s u = true) : contains s u = true := by
  obtain ⟨r, rfl⟩ := (startsWith_iff s u).1 h
  exact (Datatypes.contains_iff _ _).2 ⟨[], r, by simp⟩

/-- the literal beginning of a pattern -/
theorem matches_lit {u s : Str} {ps : List (Char → Bool)} (h : matches' (lit u ++ ps) s = true) : startsWith s u = true := by
  induction u generalizing s with
  | nil => exact (startsWith_iff _ _).2 ⟨s, rfl⟩
  | cons c cs ih =>
    cases s with
    | nil => simp [lit, matches'] at h
    | cons d ds =>
      have h' : (d == c) = true ∧ matches' (lit cs ++ ps) ds = true := by
        simpa [lit, matches'] using h
      obtain ⟨r, hr⟩ := (startsWith_iff _ _).1 (ih h'.2)
      refine (startsWith_iff _ _).2 ⟨r, ?_⟩
      rw [hr, beq_iff_eq.1 h'.1]
      rfl

/-- does a name contain one of the codes -/
def coded (ms : List Str) (u : Str) : Bool := ms.any (contains u)

section
variable {ms : List Str} {s : Str} (h : ∀ m ∈ ms, ¬ m <:+: s)
include h

theorem no_contains {u : Str} (hu : coded ms u = true) : contains s u = false := by
  obtain ⟨m, hm, hc⟩ := List.any_eq_true.1 hu
  exact Bool.eq_false_iff.2 (fun hs => h m hm (contains_trans hs hc))

theorem no_startsWith {u : Str} (hu : coded ms u = true) : startsWith s u = false :=
  Bool.eq_false_iff.2 (fun hs => by simpa [no_contains h hu] using contains_of_startsWith hs)

theorem no_eq {u : Str} (hu : coded ms u = true) : (s = u) = False := by
  refine eq_false (fun hs => ?_)
  have := no_contains h hu
  rw [hs, Bool.eq_false_iff] at this
  exact this ((Datatypes.contains_iff _ _).2 ⟨[], [], by simp⟩)

theorem no_beq {u : Str} (hu : coded ms u = true) : (s == u) = false := by
  rw [beq_eq_false_iff_ne]
  exact fun e => (no_eq h hu).mp e

theorem no_mem {us : List Str} (hu : us.all (coded ms) = true) : us.contains s = false := by
  rw [Bool.eq_false_iff]
  intro hs
  have hm : s ∈ us := by simpa using hs
  exact (no_eq h (List.all_eq_true.1 hu s hm)).mp rfl

theorem no_matches {u : Str} {ps : List (Char → Bool)} (hu : coded ms u = true) : matches' (lit u ++ ps) s = false :=
  Bool.eq_false_iff.2 (fun hs => by simpa [no_startsWith h hu] using matches_lit hs)

end

section
variable {xs : List Str} {s : Str} (h : s ∉ xs)
include h

theorem not_eq {u : Str} (hu : xs.contains u = true) : (s = u) = False :=
  eq_false (fun e => h (e ▸ by simpa using hu))

theorem not_beq {u : Str} (hu : xs.contains u = true) : (s == u) = false := by
  rw [beq_eq_false_iff_ne]
  exact fun e => (not_eq h hu).mp e

end

/-- the facts about a product that the special cases ask for -/
theorem ordinary_iss {i : Ids} (h : Ordinary i) : cassiniIss i = false := by
  have h1 : startsWith i.dataSet c!"CO-CAL-ISS" = false := no_startsWith h.dataSet (by decide)
  have h2 : startsWith i.dataSet c!"CO-" = false := no_startsWith h.dataSet (by decide)
  simp [cassiniIss, h1, h2]

theorem ordinary_msl {i : Ids} (h : Ordinary i) : mslCamera i = false := by
  simp (disch := decide) only [mslCamera, not_beq h.host, Bool.false_and]

theorem ordinary_vera {i : Ids} (h : Ordinary i) : vera i = false := by
  simp (disch := decide) only [vera, not_beq h.host, Bool.false_and]

theorem ordinary_disr {i : Ids} (h : Ordinary i) : disr i = false := by
  have : hasAny i.fileName disrWords = false := by
    rw [hasAny, List.any_eq_false]
    intro w hw
    rw [Datatypes.contains_iff]
    exact h.fileName w hw
  simp (disch := decide) only [disr, not_beq h.instrumentName, Bool.false_and, this, Bool.or_false]

theorem ordinary_huygens {i : Ids} (h : Ordinary i) (name : Str) : huygens i name = false := by
  simp (disch := decide) only [huygens, not_beq h.instrumentName, not_beq h.host, Bool.false_and, Bool.or_false]

theorem ordinary_offset {i : Ids} (h : Ordinary i) (p : Ptr) : specialOffset i p = .ok none := by
  simp (disch := decide) only [specialOffset, laterOffset, not_eq h.instrument, not_beq h.instrument, ordinary_disr h,
    no_eq h.dataSet, no_beq h.dataSet, not_beq h.host, ordinary_msl h, Bool.false_and, if_false, Bool.false_eq_true]

theorem ordinary_position {i : Ids} (h : Ordinary i) (block : Option Blk) (target : Target) (name file : Str) (fileSize : Nat)
    (general : Except PyErr TablePos) : specialPosition i block target name file fileSize general = .ok none := by
  simp (disch := decide +kernel) only [specialPosition, shortRow, mrsShortRow, ebroccSets, not_beq h.instrument, ordinary_huygens h,
    no_contains h.dataSet, no_beq h.dataSet, no_mem h.dataSet, not_beq h.host, ordinary_vera h, Bool.false_and, Bool.false_or,
    if_false, Bool.false_eq_true]

theorem ordinary_sample {i : Ids} (h : Ordinary i) (t : Str) (n : Nat) : specialSample i t n = .ok none := by
  simp (disch := decide +kernel) only [specialSample, not_beq h.instrument, no_beq h.dataSet, not_beq h.spacecraft, ordinary_iss h,
    Bool.false_and, if_false, Bool.false_eq_true]

theorem ordinary_files {i : Ids} (h : Ordinary i) (name : Str) (p : Place) : specialFiles i name p = .ok none := by
  simp (disch := decide +kernel) only [specialFiles, not_eq h.instrument, no_beq h.dataSet, not_beq h.spacecraft,
    no_startsWith h.dataSet, no_mem h.dataSet, ordinary_msl h, Bool.false_and, if_false, Bool.false_eq_true]

theorem ordinary_trivial {i : Ids} (h : Ordinary i) (name file : Str) (hf : ¬ c!"CE3_BMYK_VNIS-CC_SCI_" <:+: file) :
    specialTrivial i name file = false := by
  have hf' : contains file c!"CE3_BMYK_VNIS-CC_SCI_" = false :=
    Bool.eq_false_iff.2 (fun hc => hf ((Datatypes.contains_iff _ _).1 hc))
  simp (disch := decide +kernel) only [specialTrivial, not_beq h.instrument, not_beq h.instrumentName, no_startsWith h.dataSet,
    no_beq h.dataSet, not_beq h.spacecraft, no_contains h.dataSet, ordinary_vera h, not_beq h.host, hf', Bool.false_and,
    Bool.false_or]

theorem ordinary_reader {i : Ids} (h : Ordinary i) (name file : Str) (d : Def) : specialReader i name file d = .ok false := by
  have hall : hasAll i.dataSet [c!"ICE-C-", c!"-3-RDR-"] = false := by
    simp (disch := decide +kernel) only [hasAll, List.all_cons, no_contains h.dataSet, Bool.false_and]
  simp (disch := decide +kernel) only [specialReader, List.append_assoc, no_mem h.dataSet, not_beq h.instrument, not_beq h.instrumentName,
    not_beq h.host, no_startsWith h.dataSet, no_beq h.dataSet, not_beq h.spacecraft, no_contains h.dataSet, ordinary_vera h, hall,
    no_matches h.dataSet, Bool.false_and, Bool.false_or, andThen, anyRule, if_false, Bool.false_eq_true]

theorem ordinary_structure {i : Ids} (h : Ordinary i) (name file : Str) (d : Def) :
    specialStructure i name file d = .ok false := by
  have hr : contains i.dataSetName c!"ROSETTA" = false :=
    Bool.eq_false_iff.2 (fun hc => h.rosetta ((Datatypes.contains_iff _ _).1 hc))
  simp (disch := decide +kernel) only [specialStructure, List.append_assoc, not_beq h.instrument, not_beq h.host, no_beq h.dataSet,
    not_beq h.spacecraft, no_contains h.dataSet, ordinary_vera h, hr, no_matches h.dataSet, Bool.false_and, Bool.false_or,
    andThen, anyRule, if_false, Bool.false_eq_true]

theorem ordinary_hdu {i : Ids} (h : Ordinary i) (name : Str) (hs : List Hdu) : specialHdu i name hs = .ok none := by
  simp (disch := decide +kernel) only [specialHdu, not_beq h.instrument, not_beq h.host, no_beq h.dataSet, no_eq h.dataSet,
    no_startsWith h.dataSet, no_contains h.dataSet, Bool.false_and, Bool.and_false, if_false, Bool.false_eq_true]

theorem ordinary_fix {i : Ids} (h : Ordinary i) {name : Str} (h1 : name ≠ c!"XDR_DOCUMENT")
    (h2 : name ≠ c!"CHMN_HSK_HEADER_TABLE") (a : Around) (named : Bool) :
    (match fixOf i name a named with | .ok .general => True | _ => False) := by
  have e1 : (name == c!"XDR_DOCUMENT") = false := beq_eq_false_iff_ne.2 h1
  have e2 : (name == c!"CHMN_HSK_HEADER_TABLE") = false := beq_eq_false_iff_ne.2 h2
  simp (disch := decide +kernel) only [fixOf, List.append_assoc, no_mem h.dataSet, not_beq h.instrument, not_beq h.instrumentName,
    not_beq h.host, no_startsWith h.dataSet, no_beq h.dataSet, not_beq h.spacecraft, no_contains h.dataSet, ordinary_vera h,
    ordinary_msl h, e1, e2, no_matches h.dataSet, Bool.false_and, Bool.false_or, andThen, firstFix, if_false, Bool.false_eq_true]

/-- C100: the objects of a product of no special mission are where the general rules say, and are in the files, have the
samples, the positions and the definitions that the label says; no special reader is used. -/
theorem C100_ordinary_products {i : Ids} (h : Ordinary i) :
    (∀ block target p, startByte i block target p = dataStartByte i.recordBytes block target p.fileSize) ∧
    (∀ block target name file size general,
      position i block target name file size general = general.map some) ∧
    (∀ t n, t ≠ [] → imageSample i t n = (Datatypes.sampleTypes t n true).map some) ∧
    (∀ name p, specialFiles i name p = .ok none) ∧
    (∀ name hs, specialHdu i name hs = .ok none) ∧
    (∀ name file d, specialReader i name file d = .ok false ∧ specialStructure i name file d = .ok false) ∧
    specialImage i = false ∧ specialBands i = none ∧ specialConstants i = [] ∧ specialObjects i = none := by
  refine ⟨fun block target p => by rw [startByte, ordinary_offset h], fun block target name file size general => by
      rw [position, ordinary_position h], fun t n ht => by rw [imageSample, ordinary_sample h]; exact if_neg ht,
      ordinary_files h, ordinary_hdu h, fun name file d => ⟨ordinary_reader h name file d, ordinary_structure h name file d⟩,
      ?_, ?_, ?_, ?_⟩
  · simp (disch := decide +kernel) only [specialImage, ordinary_msl h, not_beq h.spacecraft, Bool.false_and, Bool.or_false]
  · simp (disch := decide +kernel) only [specialBands, not_eq h.host, if_false]
  · simp (disch := decide +kernel) only [specialConstants, not_eq h.instrument, if_false]
  · simp (disch := decide +kernel) only [specialObjects, ordinary_msl h, not_beq h.spacecraft, Bool.false_and, if_false,
      Bool.false_eq_true]

/-- C100: and the definition of each object is the one in the label, which stays as it is -/
theorem C100_ordinary_definitions {i : Ids} (h : Ordinary i) {name : Str} (h1 : name ≠ c!"XDR_DOCUMENT")
    (h2 : name ≠ c!"CHMN_HSK_HEADER_TABLE") (a : Around) (d : Defs) : readBlock i name a d = .ok (d name, d) := by
  have hf := ordinary_fix h h1 h2 a (d name).isSome
  unfold readBlock
  revert hf
  cases fixOf i name a (d name).isSome with
  | error e => exact fun hf => hf.elim
  | ok f => cases f <;> intro hf <;> first | rfl | exact hf.elim

/-- C100: which of its objects are loaded, and by which loader, depends on their names and their files alone -/
theorem C100_ordinary_loaders {i : Ids} (h : Ordinary i) (name file : Str) (hf : ¬ c!"CE3_BMYK_VNIS-CC_SCI_" <:+: file) :
    loaderOf i name file = Dispatch.pointerToLoader false i.dataSet name file := by
  rw [loaderOf, ordinary_trivial h name file hf]

/-- a NEAR image -/
def near : Ids where
  dataSet := c!"NEAR-A-MSI-3-EDR-EROS/ORBIT-V1.0"
  dataSetName := c!"NEAR MSI IMAGES"
  fileName := c!"M0125994421F4_2P_IOF.IMG"
  host := c!"NEAR EARTH ASTEROID RENDEZVOUS"
  spacecraft := c!"NEAR"
  instrument := c!"MSI"
  instrumentName := c!"MULTI-SPECTRAL IMAGER"
  product := c!"M0125994421F4"
  recordBytes := .int 512

theorem near_ordinary : Ordinary near where
  dataSet := by decide +kernel
  rosetta := by decide +kernel
  host := by decide +kernel
  spacecraft := by decide +kernel
  instrument := by decide +kernel
  instrumentName := by decide +kernel
  fileName := by decide +kernel

example (block : Option Blk) (size : Nat) (name file : Str) :
    startByte near block (.item (.val (.int 11))) { name, file, fileSize := size, pointer := .item (.val (.int 11)) } =
      dataStartByte (.int 512) block (.item (.val (.int 11))) size :=
  (C100_ordinary_products near_ordinary).1 _ _ _

/-! ### the words that make any product special -/

/-- C101: whatever a product's mission, if its FILE_NAME has one of seven words in it (and it is of none of three other
special cases), the label's pointer is not looked at: the object is taken to be at the end of the file, as many rows as the
label's first ROWS, each one byte longer than its first ROW_BYTES. -/
theorem C101_words_override_pointers {i : Ids} {w : Str} (hw : w ∈ words) (hf : w <:+: i.fileName)
    (h1 : i.instrument ≠ c!"CHEMIN") (h2 : i.instrument ≠ c!"THEMIS") (h3 : i.dataSet ≠ c!"CLEM1-L-RSS-5-BSR-V1.0")
    {rows rowBytes : Int} (hr : i.rows = .int rows) (hb : i.rowBytes = .int rowBytes)
    (block : Option Blk) (target : Target) (p : Ptr)
    (hp : ∀ s ∈ [c!"ULVS_DDP", c!"DLIS_AZ_DDP", c!"DLV_DDP"], ¬ s <:+: p.file) :
    startByte i block target p = .ok ((p.fileSize : Int) - rows * (rowBytes + 1)) := by
  have hd : disr i = true := by
    have : hasAny i.fileName disrWords = true :=
      List.any_eq_true.2 ⟨w, hw, (Datatypes.contains_iff _ _).2 hf⟩
    rw [disr, this, Bool.or_true]
  have hn : hasAny p.file [c!"ULVS_DDP", c!"DLIS_AZ_DDP", c!"DLV_DDP"] = false := by
    rw [hasAny, List.any_eq_false]
    intro s hs
    rw [Datatypes.contains_iff]
    exact hp s hs
  have e2 : (i.instrument == c!"THEMIS") = false := beq_eq_false_iff_ne.2 h2
  have e3 : (i.dataSet == c!"CLEM1-L-RSS-5-BSR-V1.0") = false := beq_eq_false_iff_ne.2 h3
  simp only [startByte, specialOffset, if_neg h1, e2, e3, Bool.false_and, Bool.false_eq_true, if_false, hd, if_true,
    huygensOffset, huygensRow, hn, hb, hr, addV, fromBottom, mulV, Except.map]

/-- C101: and if the label has no ROWS or no ROW_BYTES, none of its objects can be read -/
theorem C101_words_no_rows {i : Ids} {w : Str} (hw : w ∈ words) (hf : w <:+: i.fileName)
    (h1 : i.instrument ≠ c!"CHEMIN") (h2 : i.instrument ≠ c!"THEMIS") (h3 : i.dataSet ≠ c!"CLEM1-L-RSS-5-BSR-V1.0")
    (hb : i.rowBytes = .str []) (block : Option Blk) (target : Target) (p : Ptr)
    (hp : ∀ s ∈ [c!"ULVS_DDP", c!"DLIS_AZ_DDP", c!"DLV_DDP"], ¬ s <:+: p.file) :
    startByte i block target p = .error .typeError := by
  have hd : disr i = true := by
    have : hasAny i.fileName disrWords = true :=
      List.any_eq_true.2 ⟨w, hw, (Datatypes.contains_iff _ _).2 hf⟩
    rw [disr, this, Bool.or_true]
  have hn : hasAny p.file [c!"ULVS_DDP", c!"DLIS_AZ_DDP", c!"DLV_DDP"] = false := by
    rw [hasAny, List.any_eq_false]
    intro s hs
    rw [Datatypes.contains_iff]
    exact hp s hs
  have e2 : (i.instrument == c!"THEMIS") = false := beq_eq_false_iff_ne.2 h2
  have e3 : (i.dataSet == c!"CLEM1-L-RSS-5-BSR-V1.0") = false := beq_eq_false_iff_ne.2 h3
  simp only [startByte, specialOffset, if_neg h1, e2, e3, Bool.false_and, Bool.false_eq_true, if_false, hd, if_true,
    huygensOffset, huygensRow, hn, hb, addV, Except.map]

/-- the same NEAR image under the name `IMAGE001.IMG` -/
def nearImage : Ids := { near with fileName := c!"IMAGE001.IMG" }

/-- where it is -/
def nearImagePtr : Ptr where
  name := c!"IMAGE"
  file := c!"image001.img"
  fileSize := 9000
  pointer := .item (.val (.int 11))

/-- its label has no rows, and it cannot be read -/
example (block : Option Blk) : startByte nearImage block (.item (.val (.int 11))) nearImagePtr = .error .typeError :=
  C101_words_no_rows (i := nearImage) (w := c!"IMAGE") (by decide) (by decide) (by decide) (by decide) (by decide +kernel) rfl _ _
    nearImagePtr (by decide +kernel)

/-- a table of 10 rows of 100 bytes -/
def nearTimes : Ids := { near with fileName := c!"TIMES.TAB", rows := .int 10, rowBytes := .int 100 }

/-- in the first thousand of 3000 bytes -/
def nearTimesPtr : Ptr where
  name := c!"TABLE"
  file := c!"times.tab"
  fileSize := 3000
  pointer := .item (.quantity 1 c!"BYTES")

/-- it is read from byte 1990 -/
example (block : Option Blk) : startByte nearTimes block (.item (.quantity 1 c!"BYTES")) nearTimesPtr = .ok 1990 :=
  C101_words_override_pointers (i := nearTimes) (w := c!"TIME") (by decide) (by decide) (by decide) (by decide)
    (by decide +kernel) rfl rfl _ _ nearTimesPtr (by decide +kernel)

end Verif.Special
