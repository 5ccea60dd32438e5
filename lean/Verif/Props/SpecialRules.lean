/-
What the special cases do: files, lengths of tables, samples and places of HDUs.
-/
import Verif.Props.SpecialBlock
import Verif.Spec.SpecialPlaces
import Mathlib.Data.List.TakeWhile

namespace Verif.Special
open Verif.Py Verif.Locate Verif.Special.Spec

/-! ### files -/

/-- C104: for a THEMIS object in a file called `….gz` no file is looked for: the answer is an error. -/
theorem C104_gz_files {i : Ids} (hi : i.instrument = c!"THEMIS") (h1 : i.dataSet ≠ c!"CLEM1-L-RSS-5-BSR-V1.0")
    (h2 : i.spacecraft ≠ c!"MAGELLAN") (h3 : ¬ c!"CO-D-CDA" <+: i.dataSet) (name : Str) (p : Place) (base : Str) (hb : base ≠ [])
    (hp : p.pointer = some (.item (.val (.str (base ++ c!"gz")))) ∨
      ∃ rest, p.pointer = some (.seq (.val (.str (base ++ c!"gz")) :: rest))) :
    specialFiles i name p = .error .valueError := by
  have e1 : (i.dataSet == c!"CLEM1-L-RSS-5-BSR-V1.0") = false := beq_eq_false_iff_ne.2 h1
  have e2 : (i.spacecraft == c!"MAGELLAN") = false := beq_eq_false_iff_ne.2 h2
  have e3 : startsWith i.dataSet c!"CO-D-CDA" = false := Bool.eq_false_iff.2 (fun h => h3 (startsWith_prefix h))
  have e4 : endsWith (base ++ c!"gz") c!"gz" = true := List.isSuffixOf_iff_suffix.2 ⟨base, rfl⟩
  have e5 : ¬ (base ++ c!"gz").length = 2 := by
    have : 0 < base.length := List.length_pos_iff.2 hb
    simp only [List.length_append, List.length_cons, List.length_nil]
    omega
  simp only [specialFiles, e1, e2, e3, hi, Bool.false_and, Bool.false_eq_true, if_false, if_true]
  rcases hp with hp | ⟨rest, hp⟩
  · simp only [themisFiles, hp, e4, if_true, if_neg e5, Bool.false_eq_true, if_false]
  · simp only [themisFiles, hp, e4, if_true, if_neg e5, Bool.false_eq_true, if_false]

/-- C104: for one in a file of another name, that file and a compressed one are looked for -/
theorem C104_other_files {i : Ids} (hi : i.instrument = c!"THEMIS") (h1 : i.dataSet ≠ c!"CLEM1-L-RSS-5-BSR-V1.0")
    (h2 : i.spacecraft ≠ c!"MAGELLAN") (h3 : ¬ c!"CO-D-CDA" <+: i.dataSet) (name : Str) (p : Place) (s : Str)
    (hs : ¬ c!"gz" <:+ s)
    (hp : p.pointer = some (.item (.val (.str s))) ∨ ∃ rest, p.pointer = some (.seq (.val (.str s) :: rest))) :
    specialFiles i name p = .ok (some [s, s ++ c!".gz"]) := by
  have e1 : (i.dataSet == c!"CLEM1-L-RSS-5-BSR-V1.0") = false := beq_eq_false_iff_ne.2 h1
  have e2 : (i.spacecraft == c!"MAGELLAN") = false := beq_eq_false_iff_ne.2 h2
  have e3 : startsWith i.dataSet c!"CO-D-CDA" = false := Bool.eq_false_iff.2 (fun h => h3 (startsWith_prefix h))
  have e4 : endsWith s c!"gz" = false := Bool.eq_false_iff.2 (fun h => hs (List.isSuffixOf_iff_suffix.1 h))
  simp only [specialFiles, e1, e2, e3, hi, Bool.false_and, Bool.false_eq_true, if_false, if_true]
  rcases hp with hp | ⟨rest, hp⟩
  · simp only [themisFiles, hp, e4, Bool.false_eq_true, if_false]
  · simp only [themisFiles, hp, e4, Bool.false_eq_true, if_false]

example : specialFiles { instrument := c!"THEMIS" } c!"QUBE" ⟨c!"a.lbl", c!"/d", c!"a.lbl", some (.item (.val (.str c!"V00.QUB.gz")))⟩ =
    .error .valueError :=
  C104_gz_files rfl (by decide) (by decide) (by decide) _ _ c!"V00.QUB." (by decide) (.inl rfl)

example : specialFiles { instrument := c!"THEMIS" } c!"QUBE" ⟨c!"a.lbl", c!"/d", c!"a.lbl", some (.item (.val (.str c!"V00.QUB")))⟩ =
    .ok (some [c!"V00.QUB", c!"V00.QUB.gz"]) :=
  C104_other_files rfl (by decide) (by decide) (by decide) _ _ c!"V00.QUB" (by decide) (.inl rfl)

/-! ### lengths of tables -/

theorem huygens_no {i : Ids} (h1 : i.host ≠ c!"HUYGENS PROBE") (h2 : i.instrumentName ≠ c!"DESCENT IMAGER SPECTRAL RADIOMETER")
    (name : Str) : huygens i name = false := by
  have e1 : (i.host == c!"HUYGENS PROBE") = false := beq_eq_false_iff_ne.2 h1
  have e2 : (i.instrumentName == c!"DESCENT IMAGER SPECTRAL RADIOMETER") = false := beq_eq_false_iff_ne.2 h2
  simp only [huygens, e1, e2, Bool.false_and, Bool.or_false]

theorem pos_of_length {g : TablePos} {len : Int} {l : Except PyErr Val} (h : l = .ok (.int len)) :
    posRule (withLength (.ok g) l) = .ok (some (some { g with length := .int len })) := by rw [h]; rfl

theorem rowsTimes_ok {block : Blk} {rows rowBytes : Int} (hr : block.rows = some (.int rows))
    (hb : block.rowBytes = some (.int rowBytes)) (k : Int) : rowsTimes (some block) k = .ok (.int (rows * (rowBytes + k))) := by
  simp only [rowsTimes, blockGet, hr, hb, addV, mulV]

/-- C105: special tables start where the general rule says and are as long as this -/
theorem C105_table_lengths {i : Ids} (h1 : i.host ≠ c!"HUYGENS PROBE")
    (h2 : i.instrumentName ≠ c!"DESCENT IMAGER SPECTRAL RADIOMETER")
    {name : Str} {rows rowBytes len : Int} {size : Nat} (h : LongTable i rows rowBytes size name len)
    {block : Blk} (hr : block.rows = some (.int rows)) (hb : block.rowBytes = some (.int rowBytes))
    (target : Target) (file : Str) (t : TablePos) :
    position i (some block) target name file size (.ok t) = .ok (some { t with length := .int len }) := by
  have hc : ∀ {s u : Str}, u <:+: s → contains s u = true := fun h => (Datatypes.contains_iff _ _).2 h
  have hs : specialPosition i (some block) target name file size (.ok t) = .ok (some (some { t with length := .int len })) := by
    cases h with
    | @marsis n _ g1 g2 g3 =>
      have : (i.instrument == c!"MARSIS" && contains i.dataSetName c!" TEC ") = true := by rw [hc g2, g1]; rfl
      rw [specialPosition, if_pos this]
      exact pos_of_length (by rw [g3]; rfl)
    | @rpws n r g1 g2 g3 g4 g5 =>
      have e1 : (i.instrument == c!"MARSIS") = false := beq_eq_false_iff_ne.2 g1
      simp only [specialPosition, e1, Bool.false_and, Bool.false_eq_true, if_false, huygens_no h1 h2]
      rw [g2, g3, if_pos (by decide +kernel), g4, g5]
      exact pos_of_length rfl
    | tracking g1 g2 =>
      have e1 : (i.instrument == c!"MARSIS") = false := beq_eq_false_iff_ne.2 g1
      simp only [specialPosition, e1, Bool.false_and, Bool.false_eq_true, if_false, huygens_no h1 h2, shortRow]
      rw [g2, if_neg (by rw [Bool.not_eq_true]; no), if_pos (by decide +kernel)]
      exact pos_of_length (rowsTimes_ok hr hb 1)
    | @occultation d g1 g2 g3 g4 g5 =>
      have e1 : (i.instrument == c!"MARSIS") = false := beq_eq_false_iff_ne.2 g2
      have e5 : (i.host == c!"MARS EXPRESS") = false := beq_eq_false_iff_ne.2 g5
      have key : (ebroccSets.contains d && contains i.product c!"GEOM" && c!"SERIES" == c!"SERIES") = true := by
        rw [hc g4, show ebroccSets.contains d = true from by simpa [ebroccSets] using g1]; rfl
      have hno : contains d c!"CO-V/E/J/S/SS-RPWS-" = false ∧ (d == c!"LRO-L-RSS-1-TRACKING-V1.0") = false ∧
          (d == c!"DIF-C-HRIV/MRI-5-HARTLEY2-SHAPE-V1.0") = false ∧ contains d c!"MEX-M-MRS-5-OCC" = false ∧
          (d == c!"PHX-M-SSI-5-ATMOS-OPACITY-V1.0") = false := by
        revert g1
        simp only [List.mem_cons, List.not_mem_nil, or_false]
        rintro (rfl | rfl | rfl | rfl | rfl) <;> decide +kernel
      simp only [specialPosition, e1, e5, Bool.false_and, Bool.false_eq_true, if_false, huygens_no h1 h2, shortRow, mrsShortRow, g3,
        hno.1, hno.2.1, hno.2.2.1, hno.2.2.2.1, hno.2.2.2.2, Bool.or_self]
      rw [if_pos key]
      exact pos_of_length (rowsTimes_ok hr hb 2)
    | @crism r g1 g2 g3 g4 g5 =>
      have e1 : (i.instrument == c!"MARSIS") = false := beq_eq_false_iff_ne.2 g1
      have e5 : (i.host == c!"MARS EXPRESS") = false := beq_eq_false_iff_ne.2 g5
      simp only [specialPosition, e1, e5, Bool.false_and, Bool.false_eq_true, if_false, huygens_no h1 h2, shortRow, mrsShortRow,
        Bool.or_self, hc g3]
      rw [g2, if_neg (by rw [Bool.not_eq_true]; no), if_neg (by rw [Bool.not_eq_true]; no), if_neg (by rw [Bool.not_eq_true]; no),
        if_neg (by rw [Bool.not_eq_true]; no), if_neg (by rw [Bool.not_eq_true]; no), if_neg (by rw [Bool.not_eq_true]; no),
        if_pos (by decide +kernel), g4]
      exact pos_of_length (by simp only [blockGet, hr, mulV])
    | spirit g1 g2 g5 =>
      have e1 : (i.instrument == c!"MARSIS") = false := beq_eq_false_iff_ne.2 g1
      have e5 : (i.host == c!"MARS EXPRESS") = false := beq_eq_false_iff_ne.2 g5
      simp only [specialPosition, e1, e5, Bool.false_and, Bool.false_eq_true, if_false, huygens_no h1 h2, shortRow, mrsShortRow,
        Bool.or_self]
      rw [g2, if_neg (by rw [Bool.not_eq_true]; no), if_neg (by rw [Bool.not_eq_true]; no), if_neg (by rw [Bool.not_eq_true]; no),
        if_neg (by rw [Bool.not_eq_true]; no), if_neg (by rw [Bool.not_eq_true]; no), if_neg (by rw [Bool.not_eq_true]; no),
        if_neg (by rw [Bool.not_eq_true]; no), if_pos (by decide +kernel)]
      exact pos_of_length rfl
  rw [position, hs]

/-- a product of the tracking of the LRO -/
def tracked : Ids where
  dataSet := c!"LRO-L-RSS-1-TRACKING-V1.0"

example (target : Target) (file : Str) :
    position tracked (some { rows := some (.int 100), rowBytes := some (.int 59) }) target
      c!"WEAREC_TABLE" file 6000 (.ok ⟨0, .int 5900, false⟩) = .ok (some ⟨0, .int 6000, false⟩) :=
  C105_table_lengths (i := tracked) (rows := 100) (rowBytes := 59) (by decide) (by decide) (.tracking (by decide) rfl)
    (block := { rows := some (.int 100), rowBytes := some (.int 59) }) rfl rfl target file ⟨0, .int 5900, false⟩

/-! ### samples -/

/-- C106: the samples of every LROC EDR are unsigned bytes, whatever the label says -/
theorem C106_lroc_edr {i : Ids} (h1 : i.instrument = c!"LROC") (h2 : i.productType = c!"EDR")
    (t : Str) (n : Nat) : ∃ s, imageSample i t n = .ok (some s) ∧ Datatypes.npDtype s = some ⟨some .big, .uint, 1⟩ := by
  refine ⟨c!">B", ?_, by decide +kernel⟩
  have hs : specialSample i t n = .ok (some c!">B") := by
    rw [specialSample, h2, if_neg (by rw [Bool.not_eq_true]; no), h1]
    rfl
  rw [imageSample, hs]

/-- C106: those of every JIRAM RDR are little-endian reals of four bytes -/
theorem C106_jiram_rdr {i : Ids} (h1 : i.dataSet = c!"JNO-J-JIRAM-3-RDR-V1.0") (h2 : i.productType = c!"RDR")
    (t : Str) (n : Nat) : ∃ s, imageSample i t n = .ok (some s) ∧ Datatypes.npDtype s = some ⟨some .little, .float, 4⟩ := by
  refine ⟨c!"<f", ?_, by decide +kernel⟩
  have hs : specialSample i t n = .ok (some c!"<f") := by
    rw [specialSample, h1, h2]
    rfl
  rw [imageSample, hs]

theorem iss_set {i : Ids} (h : IssSet i.dataSet) : cassiniIss i = true := by
  unfold cassiniIss
  rcases h with ⟨r, h⟩ | ⟨m, r, h, hm, hall⟩
  · rw [h, (startsWith_iff _ _).2 ⟨r, rfl⟩, Bool.true_or]
  · have hall' : ∀ c ∈ m, oneOf c!"S/EVJ-" c = true := fun c hc => by simpa [oneOf] using hall c hc
    have hdrop : i.dataSet.drop 3 = m ++ (c!"ISSNA/ISSWA-2" ++ r) := by rw [h]; simp
    have hi : oneOf c!"S/EVJ-" 'I' = false := by decide
    have h1 : (i.dataSet.drop 3).takeWhile (oneOf c!"S/EVJ-") = m := by
      rw [hdrop, List.takeWhile_append_of_pos hall']
      simp [List.takeWhile_cons, hi]
    have h2 : (i.dataSet.drop 3).dropWhile (oneOf c!"S/EVJ-") = c!"ISSNA/ISSWA-2" ++ r := by
      rw [hdrop, List.dropWhile_append_of_pos hall']
      simp [List.dropWhile_cons, hi]
    have h3 : startsWith i.dataSet c!"CO-" = true := (startsWith_iff _ _).2 ⟨m ++ c!"ISSNA/ISSWA-2" ++ r, by rw [h]; simp⟩
    rw [h1, h2, h3, (startsWith_iff (c!"ISSNA/ISSWA-2" ++ r) c!"ISSNA/ISSWA-2").2 ⟨r, rfl⟩]
    cases m with
    | nil => exact absurd rfl hm
    | cons x xs => simp

/-- C106: integers of the Cassini ISS that the label says are little-endian are big-endian -/
theorem C106_cassini_iss {i : Ids} (hd : IssSet i.dataSet)
    (h2 : i.instrument ≠ c!"LROC") (h3 : i.spacecraft ≠ c!"GALILEO_ORBITER")
    (n : Nat) (hn : n ∈ [1, 2, 4, 8]) :
    (∃ s, imageSample i c!"LSB_INTEGER" n = .ok (some s) ∧ Datatypes.npDtype s = some ⟨some .big, .int, n⟩) ∧
    (∃ s, imageSample i c!"LSB_UNSIGNED_INTEGER" n = .ok (some s) ∧ Datatypes.npDtype s = some ⟨some .big, .uint, n⟩) := by
  have e2 : (i.instrument == c!"LROC") = false := beq_eq_false_iff_ne.2 h2
  have e3 : (i.spacecraft == c!"GALILEO_ORBITER") = false := beq_eq_false_iff_ne.2 h3
  have hiss : cassiniIss i = true := iss_set hd
  have hno' : ∀ s : Str, startsWith s c!"CO-" = false → (i.dataSet == s) = false := by
    intro s hs
    refine beq_eq_false_iff_ne.2 (fun e => ?_)
    have : startsWith i.dataSet c!"CO-" = true := by
      rcases hd with ⟨r, h⟩ | ⟨m, r, h, -, -⟩
      · exact (startsWith_iff _ _).2 ⟨c!"CAL-ISS" ++ r, by rw [h]; simp⟩
      · exact (startsWith_iff _ _).2 ⟨m ++ c!"ISSNA/ISSWA-2" ++ r, by rw [h]; simp⟩
    rw [e, hs] at this
    exact absurd this (by decide)
  have hno := And.intro (hno' c!"JNO-J-JIRAM-3-RDR-V1.0" (by decide)) (And.intro (hno' c!"MGN-V-RDRS-5-GVDR-V1.0" (by decide))
    (And.intro (hno' c!"LRO-L-CRAT-2-EDR-RAWDATA-V1.0" (by decide)) (hno' c!"ULY-J-EPAC-4-SUMM-PHA-24HR-V1.0" (by decide))))
  have hs : ∀ t, specialSample i t n = issSample t n := by
    intro t
    simp only [specialSample, hno.1, hno.2.1, hno.2.2.1, hno.2.2.2, e2, e3, Bool.false_and, Bool.false_eq_true, if_false, hiss,
      if_true]
  have go : ∀ t t' d, issSample t n = readAs t' n → Datatypes.Spec.Means (Datatypes.underscored t') n d →
      ∃ s, imageSample i t n = .ok (some s) ∧ Datatypes.npDtype s = some d := by
    intro t t' d ht hm
    obtain ⟨s, g1, g2, _⟩ := Datatypes.C10_types_mean_what_they_say t' n d hm
    refine ⟨s, ?_, g2⟩
    rw [imageSample, hs, ht, readAs, g1]
    rfl
  constructor
  · refine go c!"LSB_INTEGER" c!"MSB_INTEGER" _ rfl (.integer ?_ hn ?_ (.inl rfl) ?_)
    · exact ⟨.inl (by decide +kernel), by decide +kernel⟩
    · exact ⟨fun h => (by cases h), fun h => absurd h (by unfold Datatypes.Spec.LittleName; decide +kernel)⟩
    · exact ⟨fun h => (by cases h), fun h => absurd h (by decide +kernel)⟩
  · refine go c!"LSB_UNSIGNED_INTEGER" c!"MSB_UNSIGNED_INTEGER" _ rfl (.integer ?_ hn ?_ (.inr rfl) ?_)
    · exact ⟨.inl (by decide +kernel), by decide +kernel⟩
    · exact ⟨fun h => (by cases h), fun h => absurd h (by unfold Datatypes.Spec.LittleName; decide +kernel)⟩
    · exact ⟨fun _ => (by decide +kernel), fun _ => rfl⟩

/-- an image of the Cassini ISS -/
def saturnImage : Ids where
  dataSet := c!"CO-S-ISSNA/ISSWA-2-EDR-V1.0"

example : ∃ s, imageSample saturnImage c!"LSB_INTEGER" 2 = .ok (some s) ∧ Datatypes.npDtype s = some ⟨some .big, .int, 2⟩ :=
  (C106_cassini_iss (i := saturnImage) (.inr ⟨c!"S-", c!"-EDR-V1.0", rfl, by decide, by decide⟩) (by decide) (by decide) 2 (by decide)).1

end Verif.Special
