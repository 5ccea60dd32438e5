/-
A product on disk that meets the hypotheses of C122.
-/
import Verif.Props.Read
import Verif.Props.LabelExamples
import Verif.Props.ProductExamples

namespace Verif.Read
open Verif.Py Verif.Pvl Verif.Pvl.Spec Verif.Literal Verif.Files Verif.Files.Spec Verif.Read.Spec

/-- the text of the label -/
def exText : Str :=
  c!"RECORD_BYTES = 2\n^IMAGE = (\"x.img\", 3)\nOBJECT = IMAGE\nLINES = 2\nLINE_SAMPLES = 2\nSAMPLE_BITS = 16\nSAMPLE_TYPE = MSB_INTEGER\nEND_OBJECT = IMAGE\nEND\r"

/-- what it says -/
def exTree : MDict Str :=
  [(c!"RECORD_BYTES", .leaf c!"2"), (c!"^IMAGE", .leaf c!"(\"x.img\", 3)"),
   (c!"IMAGE", .node [(c!"LINES", .leaf c!"2"), (c!"LINE_SAMPLES", .leaf c!"2"), (c!"SAMPLE_BITS", .leaf c!"16"), (c!"SAMPLE_TYPE", .leaf c!"MSB_INTEGER")])]

/-- what the values mean -/
def exValue (s : Str) : Val :=
  if s = c!"2" then .int 2 else if s = c!"16" then .int 16 else if s = c!"MSB_INTEGER" then .str c!"MSB_INTEGER"
  else .tuple [.str c!"x.img", .int 3]

/-- the block of the image -/
def exImage : MDict Val :=
  [(c!"LINES", .leaf (.int 2)), (c!"LINE_SAMPLES", .leaf (.int 2)), (c!"SAMPLE_BITS", .leaf (.int 16)), (c!"SAMPLE_TYPE", .leaf (.str c!"MSB_INTEGER"))]

/-- the label -/
def exLabel : MDict Val :=
  [(c!"RECORD_BYTES", .leaf (.int 2)), (c!"^IMAGE", .leaf (.tuple [.str c!"x.img", .int 3])), (c!"IMAGE", .node exImage)]

theorem ex_label : mapLeaves exValue exTree = exLabel := rfl

/-- the image: two records of something else, and four pixels -/
def exData : Bytes := [1, 2, 3, 4, 0, 1, 255, 255, 128, 0, 0, 2]

/-- one directory with a label, an image and a note -/
def exDisk : Disk Unit where
  fs := { listing := fun _ => some [c!"note.txt", c!"X.LBL", c!"X.IMG"] }
  dirText := fun _ => c!"/data"
  pil := fun _ => .unidentified
  content := fun q => if q.2 = c!"X.LBL" then Label.Spec.utf8 exText else if q.2 = c!"X.IMG" then exData else []
  compressed := fun _ => false

/-- Everything else. Before anything is loaded, someone asks for LINES. -/
def exMachine (P : Ascii.Pandas) : Machine Unit Unit where
  gb := fun _ _ => none
  cp500 := fun _ => 'X'
  vax32 := fun _ => none
  vax := id
  pandas := P
  decode := fun b => b.map (fun _ => 'X')
  ids := ⟨c!"X", false, false⟩
  builtin := fun _ => false
  debug := false
  lookups := fun _ => [Meta.Op.get c!"LINES" .none true]
  special := fun _ _ => false
  around := fun _ => []
  prefixStart := .ok 0
  other := fun _ _ => .fails .notImplemented
  otherFile := fun _ _ => false

open Verif.Label Verif.Label.Spec in
theorem ex_says : Says exText exTree := by
  refine ⟨[c!"RECORD_BYTES = 2", c!"^IMAGE = (\"x.img\", 3)", c!"OBJECT = IMAGE", c!"LINES = 2", c!"LINE_SAMPLES = 2", c!"SAMPLE_BITS = 16",
      c!"SAMPLE_TYPE = MSB_INTEGER", c!"END_OBJECT = IMAGE", c!"END\r"],
    [c!"RECORD_BYTES = 2", c!"^IMAGE = (\"x.img\", 3)", c!"OBJECT = IMAGE", c!"LINES = 2", c!"LINE_SAMPLES = 2", c!"SAMPLE_BITS = 16",
      c!"SAMPLE_TYPE = MSB_INTEGER", c!"END_OBJECT = IMAGE", c!"END"],
    [(c!"RECORD_BYTES", c!"2"), (c!"^IMAGE", c!"(\"x.img\", 3)"), (c!"OBJECT", c!"IMAGE"), (c!"LINES", c!"2"), (c!"LINE_SAMPLES", c!"2"),
      (c!"SAMPLE_BITS", c!"16"), (c!"SAMPLE_TYPE", c!"MSB_INTEGER"), (c!"END_OBJECT", []), (c!"END", [])], ?_, ?_, ?_, ?_⟩
  · exact .none (noComment _ (by decide +kernel))
  · have step : ∀ (l : Str) (ps ls : List Str), Trimmed l → l ≠ [] → Physical ps ls → Physical (l :: ps) (l :: ls) := by
      intro l ps ls h1 h2 h3
      have := Physical.line (w₁ := []) (w₂ := []) (l := l) (blank_of _ rfl) (by decide) (blank_of _ rfl) (by decide) h1 h2 h3
      simpa using this
    iterate 8 refine step _ _ _ (trimmed_of _ rfl) (by decide) ?_
    exact .line (w₁ := []) (l := c!"END") (w₂ := c!"\r") (blank_of _ rfl) (by decide) (blank_of _ rfl) (by decide) (trimmed_of _ rfl) (by decide) .nil
  · have assign : ∀ key head : Str, Trimmed key → key ≠ [] → '=' ∉ key → Trimmed head → '=' ∉ head → head ≠ [] → UpperHead (key ++ [' '] ++ c!"=" ++ [' '] ++ head) →
        startsWith (key ++ [' '] ++ c!"=" ++ [' '] ++ head) c!"END_OBJECT" = false → Layout [key ++ [' '] ++ c!"=" ++ [' '] ++ head] (key, head ++ join c!" " []) :=
      fun key head h1 h2 h3 h4 h5 h6 h7 h8 => .assign h1 h2 h3 h4 h5 (blank_of [' '] rfl) (by decide) (blank_of [' '] rfl) (by decide)
        (fun h => absurd h h6) h7 (not_end_object _ h8) (by simp)
    refine .cons (ls := [_]) (assign c!"RECORD_BYTES" c!"2" (trimmed_of _ rfl) (by decide) (by decide) (trimmed_of _ rfl) (by decide) (by decide) (upper_of _ rfl) rfl) ?_
    refine .cons (ls := [_]) (assign c!"^IMAGE" c!"(\"x.img\", 3)" (trimmed_of _ rfl) (by decide) (by decide) (trimmed_of _ rfl) (by decide) (by decide) (upper_of _ rfl) rfl) ?_
    refine .cons (ls := [_]) (assign c!"OBJECT" c!"IMAGE" (trimmed_of _ rfl) (by decide) (by decide) (trimmed_of _ rfl) (by decide) (by decide) (upper_of _ rfl) rfl) ?_
    refine .cons (ls := [_]) (assign c!"LINES" c!"2" (trimmed_of _ rfl) (by decide) (by decide) (trimmed_of _ rfl) (by decide) (by decide) (upper_of _ rfl) rfl) ?_
    refine .cons (ls := [_]) (assign c!"LINE_SAMPLES" c!"2" (trimmed_of _ rfl) (by decide) (by decide) (trimmed_of _ rfl) (by decide) (by decide) (upper_of _ rfl) rfl) ?_
    refine .cons (ls := [_]) (assign c!"SAMPLE_BITS" c!"16" (trimmed_of _ rfl) (by decide) (by decide) (trimmed_of _ rfl) (by decide) (by decide) (upper_of _ rfl) rfl) ?_
    refine .cons (ls := [_]) (assign c!"SAMPLE_TYPE" c!"MSB_INTEGER" (trimmed_of _ rfl) (by decide) (by decide) (trimmed_of _ rfl) (by decide) (by decide) (upper_of _ rfl) rfl) ?_
    refine .cons (ls := [_]) (.endObject (rest := c!" = IMAGE") (trimmed_of _ rfl) (fun _ => upper_of _ rfl) (by simp)) ?_
    exact .cons (ls := [_]) (rest := []) (.fin (by simp)) .nil
  · have plain : ∀ k : Str, k ∉ openers → startsWith k c!"END" = false → Plain k := by
      intro k h1 h2
      refine ⟨h1, fun h => ?_⟩
      rw [(startsWith_closer k).2 h] at h2
      cases h2
    refine Or.inr ⟨_, [], List.dropLast_append_getLast? (l := [(c!"RECORD_BYTES", c!"2"), (c!"^IMAGE", c!"(\"x.img\", 3)"), (c!"OBJECT", c!"IMAGE"), (c!"LINES", c!"2"), (c!"LINE_SAMPLES", c!"2"),
      (c!"SAMPLE_BITS", c!"16"), (c!"SAMPLE_TYPE", c!"MSB_INTEGER"), (c!"END_OBJECT", []), (c!"END", [])]) _ rfl |>.symm, ?_⟩
    refine .leaf (plain _ (by decide) rfl) (.leaf (plain _ (by decide) rfl) ?_)
    exact .block (o := c!"OBJECT") (c := c!"END_OBJECT") (body := [(c!"LINES", c!"2"), (c!"LINE_SAMPLES", c!"2"), (c!"SAMPLE_BITS", c!"16"), (c!"SAMPLE_TYPE", c!"MSB_INTEGER")])
      (ss := []) (by decide) ⟨c!"_OBJECT", rfl⟩ (by decide)
      (.leaf (plain _ (by decide) rfl) (.leaf (plain _ (by decide) rfl) (.leaf (plain _ (by decide) rfl) (.leaf (plain _ (by decide) rfl) .nil)))) .nil

open Verif.Value Verif.Value.Spec in
theorem ex_values : ∀ s ∈ leaves exTree, Label.Spec.Means s (exValue s) := by
  have h2 : Whole c!"2" 2 := ⟨⟨[2], .cons (digit1 _ _ (by decide)) .nil, by decide, by decide, rfl⟩, by decide, by decide⟩
  have h3 : Whole c!"3" 3 := ⟨ex3, by decide, by decide⟩
  have h16 : Whole c!"16" 16 := ⟨⟨[1, 6], .cons (digit1 _ _ (by decide)) (.cons (digit1 _ _ (by decide)) .nil), by decide, by decide, rfl⟩, by decide, by decide⟩
  intro s hs
  have : s = c!"2" ∨ s = c!"(\"x.img\", 3)" ∨ s = c!"2" ∨ s = c!"2" ∨ s = c!"16" ∨ s = c!"MSB_INTEGER" := by simpa [exTree, leaves, leavesT] using hs
  rcases this with rfl | rfl | rfl | rfl | rfl | rfl
  · exact .value (.literal (.scalar (Or.inl (.int h2))) (Or.inr (by decide)))
  · refine .value (.literal (Step.seq (parts := [c!"\"x.img\"", c!" 3"]) (by decide) (.cons ⟨[], c!"\"x.img\"", [], rfl, by unfold Blanks; simp, by unfold Blanks; simp, ?_⟩
      (.cons ⟨[' '], c!"3", [], rfl, by unfold Blanks; simp, by unfold Blanks; simp, ?_⟩ .nil))) (Or.inr (by decide)))
    · exact .scalar (Or.inr (.mk (q := '"') (t := c!"x.img") (Or.inl rfl) (by decide) (by decide) (by decide) (by decide)))
    · exact .scalar (Or.inl (.int h3))
  · exact .value (.literal (.scalar (Or.inl (.int h2))) (Or.inr (by decide)))
  · exact .value (.literal (.scalar (Or.inl (.int h2))) (Or.inr (by decide)))
  · exact .value (.literal (.scalar (Or.inl (.int h16))) (Or.inr (by decide)))
  · refine .value (.wordy ⟨c!"MSB_INTEGER", [], rfl, ⟨⟨'M', c!"SB_INTEGER", rfl, Or.inl (by decide), ?_⟩, by decide, by decide, by decide⟩, by decide, by intro c hc; cases hc⟩
      (Or.inr (by decide)) (by decide))
    have : ∀ x ∈ c!"SB_INTEGER", ('A'.toNat ≤ x.toNat ∧ x.toNat ≤ 'Z'.toNat) ∨ x = '_' := by decide
    intro x hx
    rcases this x hx with h | h
    · exact Or.inl (Or.inl h)
    · exact Or.inl (Or.inr (Or.inr h))

open Verif.Label Verif.Label.Spec in
theorem ex_part : LabelPart (utf8 exText) 1024000 (utf8 exText) := by
  have hlen : (utf8 exText).length = 147 := by decide +kernel
  have hw : Trim.Spec.window (utf8 exText) 0 = (utf8 exText).drop 20 := by
    unfold Trim.Spec.window
    rw [Nat.mul_zero, Nat.add_zero]
    apply List.take_of_length_le
    simp [hlen]
  have hend : Trim.Spec.WindowEnd (Trim.Spec.window (utf8 exText) 0) 127 := by
    rw [hw]
    refine .inl ?_
    have : Trim.searchEnd Trim.matchPvl ((utf8 exText).drop 20) = some 127 := by decide +kernel
    exact (Trim.searchEnd_spec Trim.matchPvl_spec _).1 _ this
  have := LabelPart.ended (f := utf8 exText) (m := 1024000) (i := 0) (e := 127) (by simp) (by decide) hend
  rwa [show 20 + 51200 * 0 + 127 = (utf8 exText).length by rw [hlen], List.take_length] at this

theorem lower_ne {f n : Str} (h : lower n ≠ lower f) (h2 : ∀ x ∈ [c!".gz", c!".bz2", c!".zip"], lower n ≠ lower f ++ x) : ¬ Variant f n := by
  rintro (⟨h3, -⟩ | ⟨-, x, h3, h4⟩)
  · exact h h3
  · rcases h3 with rfl | rfl | rfl
    · exact h2 _ (by simp) h4
    · exact h2 _ (by simp) h4
    · exact h2 _ (by simp) h4

theorem ex_objects {n : Str} (h : n ∈ Objects.Spec.objects (mapLeaves exValue exTree)) : n = c!"IMAGE" := by
  unfold Objects.Spec.objects at h
  rw [← Objects.objects_eq] at h
  have e : Dispatch.objectNames (((Objects.Spec.keysOf (mapLeaves exValue exTree)).filter (fun k => startsWith k c!"^")).map depointerize) = [c!"IMAGE"] := by
    decide +kernel
  rw [e] at h
  exact List.mem_singleton.1 h

theorem no_suffix (exts : List Str) (h : ∀ x ∈ exts, ¬ x <:+: c!"x.img") : ¬ Dispatch.Spec.HasSuffix c!"X.IMG" exts := by
  rintro ⟨x, hx, a, b, he, -⟩
  exact h x hx ⟨a, b, he.symm⟩

theorem ex_stored : Stored exDisk ((), c!"X.IMG") ((), c!"X.LBL") exText exTree exValue 1024000 where
  tidy := by
    intro n hn
    have : n ∈ [c!"note.txt", c!"X.LBL", c!"X.IMG"] := hn
    simp only [List.mem_cons, List.not_mem_nil, or_false] at this
    rcases this with rfl | rfl | rfl <;> exact ⟨by decide, by decide, by decide⟩
  here := by show c!"X.IMG" ∈ [c!"note.txt", c!"X.LBL", c!"X.IMG"]; decide
  labelled := by
    refine .beside (base := c!"X") ?_ (Or.inl ⟨c!"IMG", rfl, by decide, by decide, by decide⟩) ?_ ?_
    · have h := Open.labelName_iff exDisk.toWorld ((), c!"X.IMG")
      have h2 : isLabelName (Open.text exDisk.toWorld ((), c!"X.IMG")) = false := by decide
      rw [h2] at h
      simpa using h
    · intro n hn
      have : n ∈ [c!"note.txt", c!"X.LBL", c!"X.IMG"] := hn
      simp only [List.mem_cons, List.not_mem_nil, or_false] at this
      rcases this with rfl | rfl | rfl <;> exact ⟨by decide, lower_ne (by decide) (by decide)⟩
    · refine .variant (pre := [c!"note.txt"]) (post := [c!"X.IMG"]) (by show c!"X.lbl" ∉ [c!"note.txt", c!"X.LBL", c!"X.IMG"]; decide) rfl
        (Or.inl ⟨by decide, ?_⟩) (by intro m hm; rw [List.mem_singleton.1 hm]; exact lower_ne (by decide) (by decide))
      rintro ⟨b, x, h1, h2, h3⟩
      have : c!"x.lbl" = b ++ x := h1
      rcases h3 with rfl | rfl | rfl <;> exact absurd (show _ <:+ c!"x.lbl" from ⟨b, this.symm⟩) (by decide)
  noFits := by rintro ⟨x, hx, h⟩; revert x; decide
  noPicture := by
    rw [← Open.picture_iff c!"X.LBL" ⟨by decide, by decide, by decide⟩]
    decide
  noPds4 := by
    rw [← Open.pds4_iff exDisk.toWorld ((), c!"X.LBL")]
    decide
  noChangE := by
    rintro ⟨⟨x, hx, h⟩, -⟩
    revert x
    show ∀ x ∈ _, ¬ x <:+: c!"/data/X.LBL"
    decide
  noVexMag := by
    rintro ⟨h, -⟩
    revert h
    show ¬ _ <:+: c!"/data/X.LBL"
    decide
  ascii := by show ∀ b ∈ (Label.Spec.utf8 exText).take 20, b < 128; decide +kernel
  part := ex_part
  saying := ex_says
  values := ex_values
  once := by
    intro r
    left
    by_cases h : r = c!"IMAGE"
    · subst h; decide
    · have : (keys exTree).count ('^' :: r) = 0 := by
        rw [List.count_eq_zero]
        intro hm
        have : ('^' :: r) ∈ [c!"RECORD_BYTES", c!"^IMAGE", c!"LINES", c!"LINE_SAMPLES", c!"SAMPLE_BITS", c!"SAMPLE_TYPE", c!"IMAGE"] := by
          simpa [exTree, keys, keysT] using hm
        simp [h] at this
      omega
  compressed := by left; decide
  prefixes := by
    intro n hn h
    exact absurd h (by rw [ex_objects hn]; decide)
  structures := by
    intro n hn _ b hb
    rw [ex_objects hn] at hb
    have e : Objects.Spec.blockFor (mapLeaves exValue exTree) (keys (mapLeaves exValue exTree)) c!"IMAGE" = some exImage := rfl
    rw [e, Option.some.injEq] at hb
    subst hb
    unfold Objects.Spec.structureKeys
    rw [List.filter_eq_nil_iff.2]
    · decide
    · intro k hk h
      have hk : k ∈ [c!"LINES", c!"LINE_SAMPLES", c!"SAMPLE_BITS", c!"SAMPLE_TYPE"] := hk
      replace h := (Objects.structurePointer_iff k).2 (by simpa using h)
      revert k
      decide

theorem ex_named : Named exDisk.fs () c!"x.img" c!"X.IMG" := by
  refine .variant (pre := [c!"note.txt", c!"X.LBL"]) (post := []) (by show c!"x.img" ∉ [c!"note.txt", c!"X.LBL", c!"X.IMG"]; decide) rfl
      (Or.inl ⟨by decide, ?_⟩) ?_
  · rintro ⟨b, x, h1, h2, h3⟩
    have : c!"x.img" = b ++ x := h1
    rcases h3 with rfl | rfl | rfl <;> exact absurd (show _ <:+ c!"x.img" from ⟨b, this.symm⟩) (by decide)
  · intro m hm
    simp only [List.mem_cons, List.not_mem_nil, or_false] at hm
    rcases hm with rfl | rfl <;> exact lower_ne (by decide) (by decide)

/-- the object of the label -/
theorem ex_object (P : Ascii.Pandas) : Object exDisk (exMachine P) exLabel [()] ((), c!"X.IMG") c!"IMAGE" (.tuple [.str c!"x.img", .int 3]) ((), c!"X.IMG") where
  lookups := by
    intro k o ho f
    rw [List.mem_singleton.1 ho]
    rintro ⟨⟩
  noAttribute := rfl
  noSpecial := fun _ _ => rfl
  others := by rintro k n objs - ⟨⟩
  noCaret := by decide
  noPrefix := by decide
  pointer := .here (pre := [_]) (by show c!"^IMAGE" ∉ [c!"RECORD_BYTES"]; decide)
  file := .named (f := c!"x.img") (Or.inr (Or.inl ⟨_, rfl⟩)) ⟨[], [], rfl, by simp, ex_named⟩
  shown := by rw [← Dispatch.isTrivial_iff]; decide
  noLabel := by decide
  noDot := by decide
  plain := ⟨by decide, by decide, by decide⟩
  noFits := no_suffix _ (by decide)
  noPicture := no_suffix _ (by decide)
  dataSet := ⟨[], Or.inr ⟨by decide, rfl⟩, by rw [← Dispatch.has_iff]; decide⟩

theorem ex_kind : IsImage c!"IMAGE" := by
  unfold IsImage
  simp only [← Dispatch.hasAny_iff, ← Dispatch.has_iff]
  decide

theorem ex_means : Datatypes.Spec.Means (Datatypes.underscored c!"MSB_INTEGER") 2 ⟨some .big, .int, 2⟩ := ImageFile.ex_means

open Verif.Product in
/-- The image of this product, after anything a user does. -/
example (P : Ascii.Pandas) : ∃ data s0 A, read exDisk (exMachine P) none ((), c!"x.img") none [] false 1024000 true = .ok (some (data, s0)) ∧
    c!"IMAGE" ∈ s0.index ∧
    (∃ N, ∀ fuel ≥ N, ∀ ops s, Load.Run (env exDisk (exMachine P) data fuel) s0 ops s →
      (Load.get (env exDisk (exMachine P) data fuel) s c!"IMAGE").2 = .value (some (.image A))) ∧
    A.shape = [2, 2] ∧ ImageFile.Spec.Has A [0, 1] (.int (-1)) ∧ ImageFile.Spec.Has A [1, 0] (.int (-32768)) := by
  obtain ⟨data, s0, A, h1, h2, h3, h4, h5⟩ := C122_image exDisk (exMachine P) ((), c!"x.img") ((), c!"X.IMG") ((), c!"X.LBL") exText exTree exValue 1024000 none
    (by rintro s ⟨⟩) [] true ⟨rfl, ex_named⟩ ex_stored (by simp) c!"IMAGE" (.tuple [.str c!"x.img", .int 3]) ((), c!"X.IMG") (ex_object P) ex_kind
    exImage (some 2) 4 { sampleBits := 16, lines := 2, lineSamples := 2 } c!"MSB_INTEGER" 2 0 0 _
    (.here (pre := [_, _]) (by show c!"IMAGE" ∉ [c!"RECORD_BYTES", c!"^IMAGE"]; decide))
    (.label (by show c!"RECORD_BYTES" ∉ _; decide) (.here (pre := []) (by simp)))
    (.inFile (.record (n := 2) rfl)) (by
      refine ⟨?_, Or.inr ⟨2, .here (pre := []) (by simp)⟩⟩
      intro k hk
      refine ⟨none, ?_⟩
      simp only [List.mem_cons, List.not_mem_nil, or_false] at hk
      rcases hk with rfl | rfl | rfl | rfl | rfl | rfl
      · show c!"RECORD_BYTES" ∉ _; decide
      · show c!"BYTES" ∉ _; decide
      · show c!"RECORDS" ∉ _; decide
      · show c!"ROWS" ∉ _; decide
      · show c!"ROW_BYTES" ∉ _; decide
      · show c!"ROW_SUFFIX_BYTES" ∉ _; decide)
    { lines := ⟨[], _, rfl, by decide⟩
      lineSamples := ⟨[_], _, rfl, by decide⟩
      sampleBits := ⟨[_, _], _, rfl, by decide⟩
      linePrefix := by show c!"LINE_PREFIX_BYTES" ∉ _; decide
      sampleType := ⟨[_, _, _], _, rfl, by decide⟩
      bands := by show c!"BANDS" ∉ _; decide
      storage := by show c!"BAND_STORAGE_TYPE" ∉ _; decide
      lineSuffix := by show c!"LINE_SUFFIX_BYTES" ∉ _; decide
      noPlanes := by
        intro e he
        simp only [exImage, List.mem_cons, List.not_mem_nil, or_false] at he
        rcases he with rfl | rfl | rfl | rfl <;> decide }
    (by decide) ex_means ⟨by decide, by decide⟩ (by decide) rfl rfl rfl rfl (by decide) 0 2
    (Or.inr (Or.inr ⟨by decide, by decide, rfl, rfl⟩))
  refine ⟨data, s0, A, h1, h2, h3, h4, h5 0 1 _ (by decide) (by decide) ?_, h5 1 0 _ (by decide) (by decide) ?_⟩
  · exact .signed (by decide) (by decide) (by decide) (by decide) (by decide)
  · exact .signed (by decide) (by decide) (by decide) (by decide) (by decide)

end Verif.Read
