/-
Where special objects start, in which HDU they are, and what their samples are.
-/
import Verif.Props.SpecialRules
import Verif.Props.ObjectsFiles
import Verif.Spec.SpecialPlaces
import Mathlib.Tactic.IntervalCases

namespace Verif.Special
open Verif.Py Verif.Locate Verif.Special.Spec

theorem notDisr {i : Ids} (h : NotDisr i) : disr i = false := by
  have e1 : (i.instrumentName == c!"DESCENT IMAGER SPECTRAL RADIOMETER") = false := beq_eq_false_iff_ne.2 h.1
  have e2 : hasAny i.fileName disrWords = false := by
    rw [hasAny, List.any_eq_false]
    intro s hs
    rw [Datatypes.contains_iff]
    exact h.2 s hs
  simp only [disr, e1, e2, Bool.false_and, Bool.or_false]

theorem prefix_startsWith {s p : Str} (h : p <+: s) : startsWith s p = true := by
  obtain ⟨r, rfl⟩ := h
  exact (startsWith_iff _ _).2 ⟨r, rfl⟩

theorem infix_contains {s u : Str} (h : u <:+: s) : contains s u = true := (Datatypes.contains_iff _ _).2 h

theorem not_infix_contains {s u : Str} (h : ¬ u <:+: s) : contains s u = false :=
  Bool.eq_false_iff.2 (fun e => h ((Datatypes.contains_iff _ _).1 e))

/-- a text without the four characters, and what follows one of them -/
theorem splitCommas_part (s : Str) (h : ∀ c ∈ s, c ∉ [',', '(', '|', ')']) (c : Char) (hc : c ∈ [',', '(', '|', ')'])
    (rest : Str) : splitCommas (s ++ c :: rest) = s :: splitCommas rest := by
  induction s with
  | nil =>
    have hr : splitCommas rest ≠ [] := by
      cases rest with
      | nil => simp [splitCommas]
      | cons d ds =>
        simp only [splitCommas]
        split
        · simp
        · split <;> simp
    have : c = ',' ∨ c = '(' ∨ c = '|' ∨ c = ')' := by simpa using hc
    simp only [List.nil_append, splitCommas]
    split
    · next e => exact absurd e hr
    · next x y e => rw [if_pos this, ← e]
  | cons d ds ih =>
    have hd : ¬ (d = ',' ∨ d = '(' ∨ d = '|' ∨ d = ')') := by simpa using h d (List.mem_cons_self ..)
    have := ih (fun x hx => h x (List.mem_cons_of_mem _ hx))
    simp only [List.cons_append, splitCommas, this, if_neg hd]

theorem clementine_split (file : Str) (h : ∀ c ∈ file, c ∉ [',', '(', '|', ')']) (n : Nat) :
    splitCommas (c!"(" ++ file ++ c!"," ++ Nat.toDigits 10 n ++ c!")") = [[], file, Nat.toDigits 10 n, []] := by
  have hd : ∀ c ∈ Nat.toDigits 10 n, c ∉ [',', '(', '|', ')'] := by
    intro c hc
    have := Pds4Table.natStr_digit (n := n) hc
    intro hm
    simp only [List.mem_cons, List.not_mem_nil, or_false] at hm
    rcases hm with rfl | rfl | rfl | rfl <;> exact absurd this (by decide)
  have e : c!"(" ++ file ++ c!"," ++ Nat.toDigits 10 n ++ c!")" = [] ++ '(' :: (file ++ ',' :: (Nat.toDigits 10 n ++ ')' :: [])) := by
    simp
  rw [e, splitCommas_part [] (by simp) _ (by simp), splitCommas_part file h _ (by simp), splitCommas_part _ hd _ (by simp)]
  rfl

theorem lastMinus_seq (xs : List Item) (k j : Int) : lastMinus (.seq (xs ++ [.val (.int k)])) j = .ok (k - j) := by
  simp [lastMinus, itemMinus]

/-- C107: special objects start here -/
theorem C107_special_starts {i : Ids} {p : Ptr} {n : Int} (h : StartsAt i p n) (hd : NotDisr i) (block : Option Blk)
    (target : Target) : startByte i block target p = .ok n := by
  have hdis := notDisr hd
  have key : specialOffset i p = .ok (some n) := by
    cases h with
    | histogram g1 g2 => simp only [specialOffset, g1, g2, if_true]
    | housekeeping g1 g2 => rw [specialOffset, if_pos g1, g2]; rfl
    | @clementine file m r g1 g2 g3 g4 g5 g6 =>
      have hn : (startsWith p.name c!"HEADER_TABLE" || startsWith p.name c!"DATA_TABLE") = true := by
        rcases g3 with g | g <;> simp [prefix_startsWith g]
      have hc : (i.dataSet == c!"CLEM1-L-RSS-5-BSR-V1.0" &&
          (startsWith p.name c!"HEADER_TABLE" || startsWith p.name c!"DATA_TABLE")) = true := by rw [hn, g2]; rfl
      rw [specialOffset, if_neg g1, if_pos hc, clementineOffset, g5]
      simp only
      rw [clementine_split file g4]
      have hp : Literal.pyInt (Nat.toDigits 10 m) 10 = some (m : Int) := Objects.pyInt_natStr m
      simp only [List.getElem?_cons_succ, List.getElem?_cons_zero, hp, g6, mulV]
      rfl
    | @themis m k xs g1 g2 g3 g4 g5 g6 =>
      have e1 : (i.dataSet == c!"CLEM1-L-RSS-5-BSR-V1.0") = false := beq_eq_false_iff_ne.2 g2
      rw [specialOffset, if_neg (by rw [g1]; decide), e1, Bool.false_and, if_neg (by decide), if_pos (by rw [g1, g3]; rfl), themisOffset, g4]
      simp only
      rw [if_pos g5, g6, lastMinus_seq]
      rfl
    | @iss t file m r g1 g2 g3 g4 g5 g6 g7 g8 =>
      have a1 : i.instrument ≠ c!"CHEMIN" := fun e => g1 (by simp [e])
      have a2 : (i.instrument == c!"THEMIS") = false := beq_eq_false_iff_ne.2 (fun e => g1 (by simp [e]))
      simp only [specialOffset, if_neg a1, a2, Bool.false_and, hdis, Bool.false_eq_true, if_false]
      rw [if_neg (by rw [g2, Bool.not_eq_true]; no), if_pos g2, g3]
      simp only
      rw [if_pos ⟨g4, g5⟩, coissOffset, if_neg g6, g7]
      simp only [secondMinus, itemMinus, List.getElem?_cons_succ, List.getElem?_cons_zero, g8, mulV]
    | crater g1 g2 g3 g4 =>
      have a1 : (i.dataSet == c!"CLEM1-L-RSS-5-BSR-V1.0") = false := beq_eq_false_iff_ne.2 (fun e => g2 (by simp [e]))
      have a2 : i.dataSet ≠ c!"CO-E/V/J-ISSNA/ISSWA-2-EDR-V1.0" := fun e => g2 (by simp [e])
      rw [specialOffset, if_neg (by rw [g1]; decide), a1, Bool.false_and, if_neg (by decide), if_neg (by rw [g1, Bool.not_eq_true]; no), hdis,
        if_neg (by decide), if_neg a2, laterOffset, if_pos (by rw [g1, g3, g4]; decide)]
    | @opacity rows rb g1 g2 g3 g4 g5 =>
      have a1 : i.instrument ≠ c!"CHEMIN" := fun e => g1 (by simp [e])
      have a2 : (i.instrument == c!"THEMIS") = false := beq_eq_false_iff_ne.2 (fun e => g1 (by simp [e]))
      have a3 : (i.instrument == c!"CRAT") = false := beq_eq_false_iff_ne.2 (fun e => g1 (by simp [e]))
      simp only [specialOffset, laterOffset, if_neg a1, a2, a3, Bool.false_and, hdis, Bool.false_eq_true, if_false]
      rw [if_neg (by rw [g2, Bool.not_eq_true]; no), if_neg (by rw [g2]; decide), if_pos (by rw [g2, infix_contains g3]; rfl)]
      simp only [fromBottom, g4, g5, mulV]
      rfl
    | @wetCell k xs g1 g2 g3 g4 g5 =>
      have a1 : i.instrument ≠ c!"CHEMIN" := fun e => g1 (by simp [e])
      have a2 : (i.instrument == c!"THEMIS") = false := beq_eq_false_iff_ne.2 (fun e => g1 (by simp [e]))
      have a3 : (i.instrument == c!"CRAT") = false := beq_eq_false_iff_ne.2 (fun e => g1 (by simp [e]))
      have a4 : [c!"MECA_WCL_CP", c!"MECA_WCL_CV"].contains i.productType = true := by simpa using g3
      simp only [specialOffset, laterOffset, if_neg a1, a2, a3, Bool.false_and, hdis, Bool.false_eq_true, if_false]
      rw [if_neg (by rw [g2, Bool.not_eq_true]; no), if_neg (by rw [g2]; decide), if_neg (by rw [g2, Bool.not_eq_true]; no),
        if_pos (by rw [g2, infix_contains g4, a4]; rfl), g5, lastMinus_seq]
      rfl
    | camera g1 g2 g3 =>
      have hm : mslCamera i = true := by
        have : contains i.dataSet c!"EDR" = true := infix_contains ⟨c!"MSL-M-" ++ i.instrument ++ c!"-2-", c!"-IMG-V1.0", by rw [g3]; simp⟩
        rw [mslCamera, g2, this, show [c!"MAHLI", c!"MAST_RIGHT", c!"MAST_LEFT", c!"MARDI"].contains i.instrument = true from by
          simpa using g1]
        rfl
      have hs : ∀ s : Str, startsWith s c!"MSL-M-" = false → i.dataSet ≠ s := by
        intro s e e'
        have : startsWith s c!"MSL-M-" = true := by
          rw [← e', g3]; exact (startsWith_iff _ _).2 ⟨i.instrument ++ c!"-2-EDR-IMG-V1.0", by simp⟩
        rw [this] at e
        exact absurd e (by decide)
      have hin : ∀ s : Str, s ∉ [c!"MAHLI", c!"MAST_RIGHT", c!"MAST_LEFT", c!"MARDI"] → i.instrument ≠ s := fun s e e' => e (e' ▸ g1)
      have b1 : (i.dataSet == c!"CLEM1-L-RSS-5-BSR-V1.0") = false := beq_eq_false_iff_ne.2 (hs _ (by decide))
      have b2 : (i.dataSet == c!"PHX-M-SSI-5-ATMOS-OPACITY-V1.0") = false := beq_eq_false_iff_ne.2 (hs _ (by decide))
      have b3 : (i.dataSet == c!"PHX-M-MECA-4-NIRDR-V1.0") = false := beq_eq_false_iff_ne.2 (hs _ (by decide))
      have b4 : (i.instrument == c!"THEMIS") = false := beq_eq_false_iff_ne.2 (hin _ (by decide))
      have b5 : (i.instrument == c!"CRAT") = false := beq_eq_false_iff_ne.2 (hin _ (by decide))
      have b6 : (i.instrument == c!"REMS") = false := beq_eq_false_iff_ne.2 (hin _ (by decide))
      simp only [specialOffset, laterOffset, if_neg (hin c!"CHEMIN" (by decide)), if_neg (hs c!"CO-E/V/J-ISSNA/ISSWA-2-EDR-V1.0" (by decide)),
        b1, b2, b3, b4, b5, b6, hdis, hm, Bool.false_and, Bool.and_false, Bool.false_eq_true, if_false, if_true]
  rw [startByte, key]

/-- a table of the Clementine radio science data -/
def bistatic : Ids where
  dataSet := c!"CLEM1-L-RSS-5-BSR-V1.0"
  recordBytes := .int 1024

example (block : Option Blk) (target : Target) :
    startByte bistatic block target
      { name := c!"DATA_TABLE", file := c!"B00.BSR", fileSize := 9000, pointer := .item (.val (.str c!"(B00.BSR,3)")) } = .ok 2048 :=
  C107_special_starts (i := bistatic)
    (.clementine (file := c!"B00.BSR") (n := 3) (r := 1024) (by decide) rfl (.inr (by decide)) (by decide) rfl rfl)
    ⟨by decide, by decide⟩ block target

/-! ### HDUs -/

theorem part_of (name : Str) (h : Hdu) : Part name h (partOf name h) := by
  unfold partOf Part
  by_cases hc : contains name c!"HEADER" = true
  · rw [if_pos hc]; exact .inl ⟨(Datatypes.contains_iff _ _).1 hc, rfl⟩
  · rw [if_neg hc]; exact .inr ⟨fun e => hc (infix_contains e), rfl⟩

/-- C108: special objects of FITS files are in this HDU: a header where its header starts, other objects where its data do -/
theorem C108_special_hdus {i : Ids} {name : Str} {n : Nat} (h : InHdu i name n) {hs : List Hdu} {hdu : Hdu}
    (hn : hs[n]? = some hdu) (h0 : ∀ first, hs[0]? = some first → first.hdrLoc = 0) :
    ∃ start, specialHdu i name hs = .ok (some (some start)) ∧ Part name hdu start := by
  have first : n = 0 → (if contains name c!"HEADER" = true then .ok (some (some 0))
      else (hduAt hs 0).map (fun h => some (some h.datLoc)) : Except PyErr (Option (Option Int))) =
      .ok (some (some (partOf name hdu))) := by
    rintro rfl
    unfold partOf
    by_cases hc : contains name c!"HEADER" = true
    · rw [if_pos hc, if_pos hc, h0 hdu hn]
    · rw [if_neg hc, if_neg hc, hduAt, hn]; rfl
  refine ⟨partOf name hdu, ?_, part_of name hdu⟩
  cases h with
  | rpx g1 g2 =>
    have hne : (name == c!"HISTORY") = false := beq_eq_false_iff_ne.2 (by
      rintro rfl
      exact absurd (infix_contains g2) (by decide))
    simp only [specialHdu, hne, Bool.and_false, prefix_startsWith g1, infix_contains g2, Bool.and_self, if_true, Bool.false_eq_true, if_false]
    exact first rfl
  | mdis g1 g2 =>
    obtain ⟨q, hq⟩ := g1
    have e1 : startsWith i.dataSet c!"HST-S-WFPC2-3-RPX" = false := by rw [← hq]; rfl
    have e2 : startsWith i.dataSet c!"MSGR-H-MDIS-6-CAL" = true := prefix_startsWith ⟨q, hq⟩
    simp only [List.mem_cons, List.not_mem_nil, or_false] at g2
    have e3 : startsWith name c!"EXT_MASK" = false := by rcases g2 with rfl | rfl <;> rfl
    have e4 : (name == c!"HISTORY") = false := by rcases g2 with rfl | rfl <;> rfl
    have f := first rfl
    simp only [specialHdu, e1, e2, e3, e4, Bool.and_false, Bool.false_and, Bool.false_eq_true, if_false, if_true]
    rcases g2 with rfl | rfl
    · rw [if_neg (by decide), if_neg (by decide), ← f]; rfl
    · rw [if_neg (by decide), if_pos rfl, ← f]; rfl
  | caspir g1 g2 =>
    have e1 : (i.instrument == c!"HRIV") = false := beq_eq_false_iff_ne.2 g2
    have f := first rfl
    simp only [specialHdu, e1, Bool.false_and, Bool.false_eq_true, if_false]
    rw [if_neg (by rw [g1, Bool.not_eq_true]; no), if_neg (by rw [g1, Bool.not_eq_true]; no), if_neg (by rw [g1]; decide), if_pos g1]
    exact f
  | @uvsRdr x k _ g1 g2 g3 g4 =>
    have hu : uvsRdr.lookup name = some n := by
      have hlt : n < 9 := by
        by_contra hge
        rw [List.getElem?_eq_none (by simp only [uvsRdrHdus, List.length_cons, List.length_nil]; omega)] at g3
        exact absurd g3 (by simp)
      interval_cases n <;>
        simp only [uvsRdrHdus, List.getElem?_cons_succ, List.getElem?_cons_zero, Option.some.injEq, Prod.mk.injEq] at g3 <;>
        obtain ⟨rfl, rfl⟩ := g3 <;> rcases g4 with rfl | rfl <;> decide +kernel
    rw [specialHdu, if_neg (by rw [g1, Bool.not_eq_true]; no), if_neg (by rw [g1, Bool.not_eq_true]; no),
      if_neg (by rw [g2, Bool.not_eq_true]; no), if_neg (by rw [g1]; decide), if_neg (by rw [g1]; decide),
      if_neg (by rw [g1]; decide), if_neg (by rw [g1, Bool.not_eq_true]; no), if_neg (by rw [g1]; decide),
      if_pos (by rw [g1, g2]; decide), uvsStart, hu]
    simp only [hn]
  | @uvsEdr x k _ g1 g2 g3 g4 =>
    have hu : uvsEdr.lookup name = some n := by
      have hlt : n < 12 := by
        by_contra hge
        rw [List.getElem?_eq_none (by simp only [uvsEdrHdus, List.length_cons, List.length_nil]; omega)] at g3
        exact absurd g3 (by simp)
      interval_cases n <;>
        simp only [uvsEdrHdus, List.getElem?_cons_succ, List.getElem?_cons_zero, Option.some.injEq, Prod.mk.injEq] at g3 <;>
        obtain ⟨rfl, rfl⟩ := g3 <;> rcases g4 with rfl | rfl <;> decide +kernel
    rw [specialHdu, if_neg (by rw [g1, Bool.not_eq_true]; no), if_neg (by rw [g1, Bool.not_eq_true]; no),
      if_neg (by rw [g2, Bool.not_eq_true]; no), if_neg (by rw [g1]; decide), if_neg (by rw [g1]; decide),
      if_neg (by rw [g1]; decide), if_neg (by rw [g1, Bool.not_eq_true]; no), if_neg (by rw [g1]; decide),
      if_neg (by rw [g1, g2]; decide), if_pos (by rw [g1, g2]; decide), uvsStart, hu]
    simp only [hn]

/-- C108: every object of a VMC RDR, also a header, is read from the data of the second HDU -/
theorem C108_vmc_data {i : Ids} (hd : c!"MEX-M-VMC-3-RDR" <+: i.dataSet) (hh : i.instrument ≠ c!"HRIV") (hw : i.host ≠ c!"DAWN")
    (name : Str) {hs : List Hdu} {hdu : Hdu} (hn : hs[1]? = some hdu) : specialHdu i name hs = .ok (some (some hdu.datLoc)) := by
  have e1 : (i.instrument == c!"HRIV") = false := beq_eq_false_iff_ne.2 hh
  have e2 : (i.host == c!"DAWN") = false := beq_eq_false_iff_ne.2 hw
  obtain ⟨q, hq⟩ := hd
  have e3 : startsWith i.dataSet c!"HST-S-WFPC2-3-RPX" = false := by rw [← hq]; rfl
  have e4 : startsWith i.dataSet c!"MSGR-H-MDIS-6-CAL" = false := by rw [← hq]; rfl
  have e5 : i.dataSet ≠ c!"MSSSO-J-CASPIR-3-RDR-SL9-STDS-V1.0" := by
    rw [← hq]
    intro h
    exact absurd (congrArg (fun s => s[1]?) h) (by simp)
  simp only [specialHdu, e1, e2, e3, e4, Bool.false_and, Bool.false_eq_true, if_false, if_neg e5]
  rw [if_pos (infix_contains (List.IsPrefix.isInfix ⟨q, hq⟩)), hduAt, hn]
  rfl

/-- three HDUs -/
def threeHdus : List Hdu := [⟨c!"PRIMARY", 0, 2880, 5760⟩, ⟨c!"LTS Data", 8640, 11520, 400⟩, ⟨c!"HOUSEKEEPING DATA", 14400, 17280, 0⟩]

/-- an image of Mars by the VMC -/
def marsImage : Ids where
  dataSet := c!"MEX-M-VMC-3-RDR-EXT1-V1.0"

example : specialHdu marsImage c!"IMAGE_HEADER" threeHdus = .ok (some (some 11520)) :=
  C108_vmc_data (i := marsImage) ⟨c!"-EXT1-V1.0", rfl⟩ (by decide) (by decide) _ (hs := threeHdus) (hdu := ⟨c!"LTS Data", 8640, 11520, 400⟩) rfl

/-- C108: objects of a LAMP RDR are in the HDU with this name, whatever its case; one whose data are empty raises -/
theorem C108_lamp_hdus {i : Ids} (hd : i.dataSet = c!"LRO-L-LAMP-3-RDR-V1.0") (hh : i.instrument ≠ c!"HRIV") {name u x : Str}
    (hx : (u, x) ∈ lampHdus) (hu : u <:+: name) (honly : ∀ v ∈ lampHdus, v.1 <:+: name → v.1 = u)
    (hcount : ¬ c!"CAL_CALCULATED_COUNTRATE" <:+: name) {before after : List Hdu} {hdu : Hdu}
    (hname : upper hdu.extname = upper x) (hb : ∀ h ∈ before, upper h.extname ≠ upper x) :
    (c!"HEADER" <:+: name ∨ hdu.datSpan ≠ 0 →
      ∃ start, specialHdu i name (before ++ hdu :: after) = .ok (some (some start)) ∧ Part name hdu start) ∧
    (¬ c!"HEADER" <:+: name → hdu.datSpan = 0 → specialHdu i name (before ++ hdu :: after) = .error .ioError) := by
  have e1 : (i.instrument == c!"HRIV") = false := beq_eq_false_iff_ne.2 hh
  have hf : hduNamed (before ++ hdu :: after) x = .ok hdu := by
    have : (before ++ hdu :: after).find? (fun h => upper h.extname == upper x) = some hdu := by
      rw [List.find?_append, List.find?_eq_none.2 (fun h hm => by simpa using hb h hm)]
      simp [hname]
    rw [hduNamed, this]
  have hnm : lampRdrName name (before ++ hdu :: after) = some x := by
    have no' : ∀ v ∈ lampHdus, v.1 ≠ u → contains name v.1 = false := fun v hv hne =>
      not_infix_contains (fun e => hne (honly v hv e))
    have hc := not_infix_contains hcount
    have hyes := infix_contains hu
    simp only [lampHdus, List.forall_mem_cons, List.not_mem_nil, false_imp_iff, implies_true, and_true] at no'
    obtain ⟨n1, n2, n3, n4, n5, n6, n7⟩ := no'
    simp only [lampHdus, List.mem_cons, List.not_mem_nil, or_false, Prod.mk.injEq] at hx
    rcases hx with ⟨rfl, rfl⟩ | ⟨rfl, rfl⟩ | ⟨rfl, rfl⟩ | ⟨rfl, rfl⟩ | ⟨rfl, rfl⟩ | ⟨rfl, rfl⟩ | ⟨rfl, rfl⟩
    · simp only [lampRdrName, hyes, if_true]
    · simp only [lampRdrName, n1 (by decide), hyes, if_true, Bool.false_eq_true, if_false]
    · simp only [lampRdrName, n1 (by decide), n2 (by decide), hyes, if_true, Bool.false_eq_true, if_false]
    · simp only [lampRdrName, n1 (by decide), n2 (by decide), n3 (by decide), hyes, if_true, Bool.false_eq_true, if_false]
    · simp only [lampRdrName, n1 (by decide), n2 (by decide), n3 (by decide), n4 (by decide), hc, hyes, if_true, Bool.false_eq_true, if_false]
    · simp only [lampRdrName, n1 (by decide), n2 (by decide), n3 (by decide), n4 (by decide), n5 (by decide), hc, hyes, if_true,
        Bool.false_eq_true, if_false]
    · simp only [lampRdrName, n1 (by decide), n2 (by decide), n3 (by decide), n4 (by decide), n5 (by decide), n6 (by decide), hc, hyes,
        if_true, Bool.false_eq_true, if_false]
  have hs : specialHdu i name (before ++ hdu :: after) = lampRdr name (before ++ hdu :: after) := by
    simp only [specialHdu, e1, Bool.false_and, Bool.false_eq_true, if_false]
    rw [if_neg (by rw [hd, Bool.not_eq_true]; no), if_neg (by rw [hd, Bool.not_eq_true]; no), if_neg (by rw [hd]; decide),
      if_neg (by rw [hd]; decide), if_neg (by rw [hd]; decide), if_neg (by rw [hd, Bool.not_eq_true]; no), if_pos hd]
  rw [hs, lampRdr, hnm]
  simp only [hf]
  constructor
  · intro h
    by_cases hc : contains name c!"HEADER" = true
    · rw [if_pos hc]
      exact ⟨_, rfl, .inl ⟨(Datatypes.contains_iff _ _).1 hc, rfl⟩⟩
    · have hc' : ¬ c!"HEADER" <:+: name := fun e => hc (infix_contains e)
      rw [if_neg hc, if_neg (h.resolve_left hc')]
      exact ⟨_, rfl, .inr ⟨hc', rfl⟩⟩
  · intro h1 h2
    rw [not_infix_contains h1, if_neg (by decide), if_pos h2]

/-- a product of the LAMP -/
def lampProduct : Ids where
  dataSet := c!"LRO-L-LAMP-3-RDR-V1.0"

example : specialHdu lampProduct c!"HOUSEKEEPING_TABLE" threeHdus = .error .ioError :=
  (C108_lamp_hdus (i := lampProduct) rfl (by decide) (u := c!"HOUSEKEEPING") (x := c!"Housekeeping Data") (by decide)
    ((Datatypes.contains_iff _ _).1 (by decide)) (by
      intro v hv h
      have h' := infix_contains h
      revert v
      decide) (by rw [← Datatypes.contains_iff]; decide)
    (before := [⟨c!"PRIMARY", 0, 2880, 5760⟩, ⟨c!"LTS Data", 8640, 11520, 400⟩]) (after := [])
    (hdu := ⟨c!"HOUSEKEEPING DATA", 14400, 17280, 0⟩) (by decide) (by
      intro h hm
      simp only [List.mem_cons, List.not_mem_nil, or_false] at hm
      rcases hm with rfl | rfl <;> decide)).2
    (by rw [← Datatypes.contains_iff]; decide) rfl

/-- an acquisition of the UVS -/
def uvsProduct : Ids where
  dataSet := c!"JNO-J-UVS-3-RDR-V1.0"
  productType := c!"RDR"

example : ∃ start, specialHdu uvsProduct c!"ACQUISITION_LIST_TABLE" threeHdus = .ok (some (some start)) ∧
    Part c!"ACQUISITION_LIST_TABLE" ⟨c!"LTS Data", 8640, 11520, 400⟩ start :=
  C108_special_hdus (i := uvsProduct) (n := 1) (hs := threeHdus)
    (.uvsRdr (x := c!"ACQUISITION_LIST") (k := c!"TABLE") rfl rfl rfl (.inl rfl)) rfl
    (fun first h => by
      simp only [threeHdus, List.getElem?_cons_zero, Option.some.injEq] at h
      rw [← h])

/-! ### samples -/

/-- C106: samples read as those of another type -/
theorem C106_read_as {i : Ids} {t t' : Str} (h : ReadAs i t t') (n : Nat) :
    imageSample i t n = (Datatypes.sampleTypes t' n true).map some := by
  have key : specialSample i t n = readAs t' n := by
    cases h with
    | craterBits g1 g2 =>
      have e : (i.instrument == c!"LROC") = false := beq_eq_false_iff_ne.2 g2
      simp only [specialSample, g1, e, Bool.false_and, Bool.false_eq_true, if_false]
      rw [if_neg (by rw [Bool.not_eq_true]; no), if_neg (by rw [Bool.not_eq_true]; no)]
      rfl
    | craterNone g1 g2 g3 =>
      have e : (i.instrument == c!"LROC") = false := beq_eq_false_iff_ne.2 g2
      have hne : t ≠ c!"BIT_STRING" := by rintro rfl; exact absurd (infix_contains g3) (by decide)
      simp only [specialSample, g1, e, Bool.false_and, Bool.false_eq_true, if_false]
      rw [if_neg (by rw [Bool.not_eq_true]; no), if_neg (by rw [Bool.not_eq_true]; no), if_pos (by decide), craterSample, if_neg hne,
        if_pos (infix_contains g3)]
    | nimsBits g1 g2 g3 =>
      have e : (i.instrument == c!"LROC") = false := beq_eq_false_iff_ne.2 g3
      simp only [specialSample, g1, g2, e, Bool.false_and, Bool.false_eq_true, if_false]
      rw [if_neg (by rw [Bool.not_eq_true]; no), if_neg (by rw [Bool.not_eq_true]; no), if_neg (by decide), if_pos (by decide)]
      rfl
    | nimsNone g1 g2 g3 g4 =>
      have e : (i.instrument == c!"LROC") = false := beq_eq_false_iff_ne.2 g3
      have hne : t ≠ c!"BIT_STRING" := by rintro rfl; exact absurd (infix_contains g4) (by decide)
      simp only [specialSample, g1, g2, e, Bool.false_and, Bool.false_eq_true, if_false]
      rw [if_neg (by rw [Bool.not_eq_true]; no), if_neg (by rw [Bool.not_eq_true]; no), if_neg (by decide), if_pos (by decide),
        nimsSample, if_neg hne, if_pos (infix_contains g4)]
    | ulysses g1 g2 g3 g4 =>
      have e : (i.instrument == c!"LROC") = false := beq_eq_false_iff_ne.2 g3
      have e' : (i.spacecraft == c!"GALILEO_ORBITER") = false := beq_eq_false_iff_ne.2 g4
      have hb : endsWith i.product c!"BIN" = true := List.isSuffixOf_iff_suffix.2 g2
      simp only [specialSample, g1, e, e', hb, Bool.false_and, Bool.false_eq_true, if_false]
      rw [if_neg (by rw [Bool.not_eq_true]; no), if_neg (by rw [Bool.not_eq_true]; no), if_neg (by decide), if_pos (by decide)]
      rfl
  rw [imageSample, key, readAs]
  cases Datatypes.sampleTypes t' n true with
  | error e => rfl
  | ok d => rfl

/-- a record of the NIMS -/
def nimsProduct : Ids where
  dataSet := c!"GO-V/E-NIMS-2-EDR-V1.0"
  spacecraft := c!"GALILEO_ORBITER"

example : imageSample nimsProduct c!"N/A" 4 = .ok (some c!"S4") :=
  C106_read_as (i := nimsProduct) (.nimsNone rfl rfl (by decide) ⟨[], [], rfl⟩) 4

/-! ### readers -/

theorem any_here {b : Bool} {rest : List (Except PyErr Bool)} (h : b = true) : anyRule (.ok b :: rest) = .ok true := by
  rw [h]; rfl

theorem any_next {b : Bool} {rest : List (Except PyErr Bool)} (h : anyRule rest = .ok true) : anyRule (.ok b :: rest) = .ok true := by
  cases b
  · exact h
  · rfl

/-- C109: these tables are read by readers of their own -/
theorem C109_own_readers {i : Ids} {name : Str} (h : (i.dataSet, name) ∈ ownReaders) (file : Str) (d : Def) :
    specialReader i name file d = .ok true := by
  generalize hd : i.dataSet = s at h
  simp only [ownReaders, List.mem_cons, List.not_mem_nil, or_false, Prod.mk.injEq] at h
  simp only [specialReader, hd]
  rcases h with ⟨rfl, rfl⟩ | ⟨rfl, rfl⟩ | ⟨rfl, rfl⟩ | ⟨rfl, rfl⟩ | ⟨rfl, rfl⟩ | ⟨rfl, rfl⟩ | ⟨rfl, rfl⟩ | ⟨rfl, rfl⟩ | ⟨rfl, rfl⟩ |
    ⟨rfl, rfl⟩ | ⟨rfl, rfl⟩ | ⟨rfl, rfl⟩ | ⟨rfl, rfl⟩ | ⟨rfl, rfl⟩ | ⟨rfl, rfl⟩ | ⟨rfl, rfl⟩ | ⟨rfl, rfl⟩ | ⟨rfl, rfl⟩ | ⟨rfl, rfl⟩ |
    ⟨rfl, rfl⟩ <;> repeat (first | exact any_here (by decide +kernel) | refine any_next ?_)

/-- C109: the columns or elements of these objects are found by rules of their own -/
theorem C109_own_columns {i : Ids} {name : Str} (h : (i.dataSet, name) ∈ ownColumns) (file : Str) (d : Def) :
    specialStructure i name file d = .ok true := by
  generalize hd : i.dataSet = s at h
  simp only [ownColumns, List.mem_cons, List.not_mem_nil, or_false, Prod.mk.injEq] at h
  simp only [specialStructure, hd]
  rcases h with ⟨rfl, rfl⟩ | ⟨rfl, rfl⟩ | ⟨rfl, rfl⟩ | ⟨rfl, rfl⟩ | ⟨rfl, rfl⟩ | ⟨rfl, rfl⟩ | ⟨rfl, rfl⟩ | ⟨rfl, rfl⟩ | ⟨rfl, rfl⟩ |
    ⟨rfl, rfl⟩ <;> repeat (first | exact any_here (by decide +kernel) | refine any_next ?_)

theorem or_here {a b : Bool} (h : b = true) : (a || b) = true := by rw [h, Bool.or_true]

theorem or_next {a b : Bool} (h : a = true) : (a || b) = true := by rw [h, Bool.true_or]

/-- C109: these objects are not loaded -/
theorem C109_not_loaded {i : Ids} {name : Str} (h : (i.dataSet, name) ∈ notLoaded) (file : Str) :
    loaderOf i name file = .trivial := by
  have ht : specialTrivial i name file = true := by
    generalize hd : i.dataSet = s at h
    simp only [notLoaded, List.mem_cons, List.not_mem_nil, or_false, Prod.mk.injEq] at h
    simp only [specialTrivial, hd]
    rcases h with ⟨rfl, rfl⟩ | ⟨rfl, rfl⟩ | ⟨rfl, rfl⟩ | ⟨rfl, rfl⟩ | ⟨rfl, rfl⟩ | ⟨rfl, rfl⟩ | ⟨rfl, rfl⟩ <;>
      repeat (first | exact or_here (by decide +kernel) | refine or_next ?_)
  rw [loaderOf, Dispatch.pointerToLoader, ht, Bool.or_true, if_pos rfl]

example : specialReader { dataSet := c!"VL2-M-SEIS-5-RDR-V1.0" } c!"TABLE" c!"SEIS.TAB" {} = .ok true :=
  C109_own_readers (by decide) _ _

example : specialStructure { dataSet := c!"MRO-M-MCS-4-RDR-V1.0" } c!"TABLE" c!"X.TAB" {} = .ok true :=
  C109_own_columns (by decide) _ _

example : loaderOf { dataSet := c!"SLN-L-GRS-3-ENG-SPECTRUM-V1.0" } c!"TABLE" c!"X.DAT" = .trivial :=
  C109_not_loaded (by decide) _

/-! ### files beside the label -/

theorem pathStem_ext (stem ext : Str) (hs : stem ≠ []) (he : ext ≠ []) (hd : '.' ∉ ext) : pathStem (stem ++ '.' :: ext) = stem := by
  have hw : ((stem ++ '.' :: ext).reverse.takeWhile (fun c => c != '.')) = ext.reverse := by
    have : (stem ++ '.' :: ext).reverse = ext.reverse ++ ('.' :: stem.reverse) := by simp
    rw [this, List.takeWhile_append_of_pos (fun c hc => by
      have : c ≠ '.' := fun e => hd (by rw [← e]; exact List.mem_reverse.1 hc)
      simpa using this)]
    simp
  have hl : (stem ++ '.' :: ext).length - ext.length - 1 = stem.length := by
    simp only [List.length_append, List.length_cons]; omega
  unfold pathStem
  simp only [hw, List.reverse_reverse, hl, List.take_left']
  rw [if_neg (by
    rintro (h | h | h)
    · exact he h
    · exact hs h
    · simp only [List.length_append, List.length_cons] at h; omega)]

/-- C110: the object's file is the one beside the label, whatever file the pointer names -/
theorem C110_beside_label {i : Ids} {name ext : Str} (h : BesideLabel i name ext) (p : Place) (stem lblext : Str)
    (hl : p.labelName = stem ++ '.' :: lblext) (hs : stem ≠ []) (he : lblext ≠ []) (hd : '.' ∉ lblext) :
    specialFiles i name p = .ok (some [p.labelDir ++ c!"/" ++ stem ++ ext]) := by
  have hb : ∀ x, besideLabel p x = p.labelDir ++ c!"/" ++ stem ++ x := by
    intro x
    rw [besideLabel, hl, pathStem_ext stem lblext hs he hd]
  cases h with
  | dust g1 g2 =>
    have e : (i.spacecraft == c!"MAGELLAN") = false := beq_eq_false_iff_ne.2 g2
    have e1 : [c!"HEADER_TABLE", c!"DATA_TABLE"].contains c!"TABLE" = false := by decide
    simp only [specialFiles, e, e1, Bool.and_false, Bool.false_and, Bool.false_eq_true, if_false, prefix_startsWith g1, hb]
    rfl
  | newHorizons g1 g2 =>
    rw [specialFiles, if_neg (by rw [Bool.not_eq_true]; no), if_neg (by rw [Bool.not_eq_true]; no), if_neg (by rw [Bool.not_eq_true]; no),
      if_neg g2, if_pos (by
        rw [show [c!"NH-P-PEPSSI-4-PLASMA-V1.0", c!"NH-X-SWAP-5-DERIVED-SOLARWIND-V1.0",
          c!"NH-P/PSA-LORRI/ALICE/REX-5-ATMOS-V1.0"].contains i.dataSet = true from by simpa using g1]; rfl), hb]
  | jitter g1 g2 g3 =>
    rw [specialFiles, if_neg (by rw [Bool.not_eq_true]; no), if_neg (by rw [Bool.not_eq_true]; no), if_neg (by rw [Bool.not_eq_true]; no),
      if_neg g3, if_neg (by rw [Bool.not_eq_true]; no), if_neg (by rw [Bool.not_eq_true]; no), if_pos (by rw [g1, g2]; decide), hb]

example : specialFiles { dataSet := c!"CO-D-CDA-3/4/5-DUST-V1.0" } c!"TABLE"
    ⟨c!"CDASTAT.LBL", c!"/data", c!"CDASTAT.LBL", some (.item (.val (.str c!"WRONG.TAB")))⟩ = .ok (some [c!"/data/CDASTAT.TAB"]) :=
  C110_beside_label (.dust ⟨c!"-3/4/5-DUST-V1.0", rfl⟩ (by decide)) _ c!"CDASTAT" c!"LBL" rfl (by decide) (by decide) (by decide)

end Verif.Special
