/-
C21: the choice of a loader. C50: limits.
-/
import Verif.Model.Dispatch
import Verif.Spec.Dispatch
import Verif.Props.Files
import Verif.Props.Datatypes

namespace Verif.Dispatch
open Verif.Py Verif.Files Verif.Files.Spec Verif.Dispatch.Spec

theorem has_iff (p w : Str) : contains p w = true ↔ Has p w := by
  rw [Verif.Datatypes.contains_iff]
  constructor
  · rintro ⟨a, b, h⟩; exact ⟨a, b, h.symm⟩
  · rintro ⟨a, b, h⟩; exact ⟨a, b, h.symm⟩

theorem not_has_iff (p w : Str) : contains p w = false ↔ ¬ Has p w := by
  rw [← has_iff]; simp

theorem hasAny_iff (p : Str) (ws : List Str) : ws.any (contains p) = true ↔ HasAny p ws := by
  rw [List.any_eq_true]
  unfold HasAny
  simp only [has_iff]

theorem isTrivial_iff (p : Str) : isTrivial p = true ↔ NeverLoaded p := by
  unfold isTrivial NeverLoaded
  simp only [Bool.or_eq_true, Bool.and_eq_true, Bool.not_eq_true', has_iff, not_has_iff, and_assoc, or_assoc]

theorem tableLike_iff (p : Str) : tableLike p = true ↔ HasAny p tableNames ∧ ¬ HasAny p notTables := by
  unfold tableLike
  have h1 : tableWords.any (contains p) = true ↔ HasAny p tableNames := hasAny_iff p tableNames
  have h2 : HasAny p notTables ↔ (tableWords.any (fun w => contains p (w ++ c!"_HEADER")) = true ∨
      tableWords.any (fun w => contains p (w ++ c!"_NAME")) = true ∨ contains p c!"HISTOGRAM_IMAGE" = true) := by
    unfold HasAny notTables
    simp only [List.mem_append, List.mem_map, List.any_eq_true, has_iff]
    constructor
    · rintro ⟨w, (⟨v, hv, rfl⟩ | ⟨v, hv, rfl⟩) | h, hw⟩
      · exact .inl ⟨v, hv, hw⟩
      · exact .inr (.inl ⟨v, hv, hw⟩)
      · simp only [List.mem_singleton] at h; subst h; exact .inr (.inr hw)
    · rintro (⟨v, hv, hw⟩ | ⟨v, hv, hw⟩ | hw)
      · exact ⟨_, .inl (.inl ⟨v, hv, rfl⟩), hw⟩
      · exact ⟨_, .inl (.inr ⟨v, hv, rfl⟩), hw⟩
      · exact ⟨_, .inr (by simp), hw⟩
  rw [h2, ← h1]
  simp only [Bool.and_eq_true, Bool.not_eq_true', not_or, Bool.not_eq_true, and_assoc]

theorem text_iff (p : Str) : ((contains p c!"TEXT" || contains p c!"PDF" || contains p c!"MAP_PROJECTION_CATALOG" ||
    contains p c!"FILENAME") = true ∨ contains p c!"DESC" = true) ↔ HasAny p textWords := by
  rw [← hasAny_iff]
  simp [textWords, Bool.or_eq_true, or_assoc]

theorem image_iff (p : Str) : (contains p c!"IMAGE" || contains p c!"QUB" || contains p c!"XDR_DOCUMENT") = true ↔
    HasAny p imageWords := by
  rw [← hasAny_iff]
  simp [imageWords, Bool.or_eq_true, or_assoc]

/-! ### file suffixes -/

theorem head_lower (s : Str) : (lower s).head? = s.head?.map lowerC := by cases s <;> rfl

theorem ordinary_lower (s : Str) (h : Ordinary s) : Ordinary (lower s) := by
  obtain ⟨h1, h2, h3⟩ := h
  refine ⟨by simpa [lower] using h1, ?_, ?_⟩
  · rw [head_lower]
    intro h
    cases hs : s.head? with
    | none => rw [hs] at h; simp at h
    | some c =>
      rw [hs] at h h2
      simp only [Option.map_some, Option.some.injEq] at h
      rw [lowerC_dot] at h
      exact h2 (by rw [h])
  · intro h
    have : (lower s).getLast? = s.getLast?.map lowerC := by simp [lower, List.getLast?_map]
    rw [this] at h
    cases hs : s.getLast? with
    | none => rw [hs] at h; simp at h
    | some c =>
      rw [hs] at h h3
      simp only [Option.map_some, Option.some.injEq] at h
      rw [lowerC_dot] at h
      exact h3 (by rw [h])

/-- a part after a dot, in terms of the text around it -/
theorem part_iff (s x : Str) (hx : '.' ∉ x) :
    x ∈ (splitOn '.' s).tail ↔ ∃ a b, s = a ++ '.' :: x ++ b ∧ (b = [] ∨ b.head? = some '.') := by
  constructor
  · intro h
    have hc := splitOn_compose '.' s
    obtain ⟨pre, post, hp⟩ := List.append_of_mem h
    rw [hp] at hc
    simp only [List.map_append, List.map_cons, List.flatten_append, List.flatten_cons] at hc
    refine ⟨(splitOn '.' s).headD [] ++ (pre.map (fun w => '.' :: w)).flatten,
      (post.map (fun w => '.' :: w)).flatten, ?_, ?_⟩
    · refine hc.symm.trans ?_
      simp only [List.append_assoc]
    · cases post with
      | nil => exact .inl rfl
      | cons y ys => exact .inr rfl
  · rintro ⟨a, b, rfl, hb⟩
    rw [List.append_assoc, List.cons_append, splitOn_append_gen]
    have hmem : x ∈ splitOn '.' (x ++ b) := by
      rcases hb with rfl | hb
      · rw [List.append_nil, splitOn_notMem '.' x hx]; simp
      · cases b with
        | nil => simp at hb
        | cons c cs =>
          simp only [List.head?_cons, Option.some.injEq] at hb
          subst hb
          rw [splitOn_append '.' x cs hx]; simp
    cases hs : splitOn '.' a with
    | nil => exact absurd hs (splitOn_ne_nil '.' a)
    | cons w ws => simp [hmem]

/-- what `looks_like_this_kind_of_file` says about ordinary file names, for extensions with one dot -/
theorem looksLike_iff (fn : Str) (h : Ordinary fn) (exts : List Str) (he : ∀ x ∈ exts, ∃ w, x = '.' :: w ∧ '.' ∉ w) :
    looksLike fn exts = true ↔ HasSuffix fn exts := by
  obtain ⟨g1, g2, g3⟩ := ordinary_lower fn h
  have hsuf : suffixes (lower fn) = (splitOn '.' (lower fn)).tail.map (fun w => '.' :: w) := by
    unfold suffixes
    rw [if_neg (fun h' => g3 ((endsWith_dot _).1 h')), lstripDot_ordinary _ g2]
  unfold looksLike HasSuffix
  rw [hsuf, List.any_eq_true]
  simp only [List.mem_map, decide_eq_true_eq]
  constructor
  · rintro ⟨x, ⟨w, hw, rfl⟩, hx⟩
    have hwd : '.' ∉ w := splitOn_parts '.' _ w (List.mem_of_mem_tail hw)
    obtain ⟨a, b, h1, h2⟩ := (part_iff (lower fn) w hwd).1 hw
    refine ⟨_, hx, a, b, by simpa using h1, ?_, h2⟩
    rintro rfl
    apply g2
    rw [h1]; rfl
  · rintro ⟨x, hx, a, b, h1, _, h3⟩
    obtain ⟨w, rfl, hw⟩ := he x hx
    exact ⟨'.' :: w, ⟨w, (part_iff (lower fn) w hw).2 ⟨a, b, by simpa using h1, h3⟩, rfl⟩, hx⟩

theorem looksLike_fits (fn : Str) (h : Ordinary fn) :
    looksLike fn fitsExtensions = true ↔ HasSuffix fn [c!".fits", c!".fit", c!".fz"] := by
  rw [← looksLike_iff fn h [c!".fits", c!".fit", c!".fz"]]
  · unfold looksLike
    rw [List.any_eq_true, List.any_eq_true]
    obtain ⟨g1, g2, g3⟩ := ordinary_lower fn h
    have hsuf : suffixes (lower fn) = (splitOn '.' (lower fn)).tail.map (fun w => '.' :: w) := by
      unfold suffixes
      rw [if_neg (fun h' => g3 ((endsWith_dot _).1 h')), lstripDot_ordinary _ g2]
    constructor
    · rintro ⟨x, hx, hm⟩
      refine ⟨x, hx, ?_⟩
      rw [hsuf, List.mem_map] at hx
      obtain ⟨w, hw, rfl⟩ := hx
      have hwd : '.' ∉ w := splitOn_parts '.' _ w (List.mem_of_mem_tail hw)
      simp only [fitsExtensions, decide_eq_true_eq, List.mem_cons, List.cons.injEq, true_and, List.not_mem_nil,
        or_false] at hm ⊢
      rcases hm with h | h | h | h | h
      · exact .inl h
      · exact .inr (.inl h)
      · exact absurd (by rw [h]; simp) hwd
      · exact absurd (by rw [h]; simp) hwd
      · exact .inr (.inr h)
    · rintro ⟨x, hx, hm⟩
      refine ⟨x, hx, ?_⟩
      simp only [fitsExtensions, decide_eq_true_eq, List.mem_cons, List.not_mem_nil, or_false] at hm ⊢
      rcases hm with h | h | h
      · exact .inl h
      · exact .inr (.inl h)
      · exact .inr (.inr (.inr (.inr h)))
  · intro x hx
    simp only [List.mem_cons, List.not_mem_nil, or_false] at hx
    rcases hx with rfl | rfl | rfl
    · exact ⟨_, rfl, by decide⟩
    · exact ⟨_, rfl, by decide⟩
    · exact ⟨_, rfl, by decide⟩

theorem looksLike_desktop (fn : Str) (h : Ordinary fn) :
    looksLike fn desktopExtensions = true ↔ HasSuffix fn desktopExtensions := by
  apply looksLike_iff fn h
  intro x hx
  simp only [desktopExtensions, List.mem_cons, List.not_mem_nil, or_false] at hx
  rcases hx with rfl | rfl | rfl | rfl | rfl | rfl | rfl | rfl | rfl | rfl | rfl | rfl <;>
    exact ⟨_, rfl, by decide⟩

/-! ### the choice -/

/-- the object is one that is loaded by its own rules: not trivial, not the label -/
def Loadable (extra : Bool) (p : Str) : Prop := ¬ NeverLoaded p ∧ extra = false ∧ p ≠ c!"LABEL"

theorem loadable_eq (extra : Bool) (dataset p file : Str) (h : Loadable extra p) :
    pointerToLoader extra dataset p file = match imageLib file with
      | some l => l
      | none => match specialPointer dataset p with
        | some l => l
        | none => byName p file := by
  obtain ⟨h1, h2, h3⟩ := h
  have : isTrivial p = false := by
    rw [Bool.eq_false_iff, ne_eq, isTrivial_iff]; exact h1
  unfold pointerToLoader
  rw [this, h2, if_neg h3]
  rfl

/-- **C21 (never loaded).** TIFF parts that are not images or documents, structures and PDS_OBJECTs are never
given to a reader, and are not among the object names of a product. -/
theorem C21_never_loaded (extra : Bool) (dataset p file : Str) (names : List Str) :
    (NeverLoaded p → pointerToLoader extra dataset p file = .trivial) ∧
    (p ∈ objectNames names ↔ p ∈ names ∧ ¬ NeverLoaded p) := by
  constructor
  · intro h
    unfold pointerToLoader
    rw [(isTrivial_iff p).2 h]; rfl
  · unfold objectNames
    rw [List.mem_filter, ← isTrivial_iff]
    simp

/-- **C21 (by file).** Objects in files with a FITS suffix are read as FITS and those in files with an image
suffix as images, whatever they are called. -/
theorem C21_by_file (extra : Bool) (dataset p file : Str) (h : Loadable extra p) (ho : Ordinary file) :
    (HasSuffix file [c!".fits", c!".fit", c!".fz"] → pointerToLoader extra dataset p file = .fits) ∧
    (¬ HasSuffix file [c!".fits", c!".fit", c!".fz"] → HasSuffix file desktopExtensions →
      pointerToLoader extra dataset p file = .compressedImage) := by
  rw [loadable_eq extra dataset p file h]
  unfold imageLib
  rw [← looksLike_fits file ho, ← looksLike_desktop file ho]
  constructor
  · intro hf; rw [if_pos hf]
  · intro hf hd; rw [if_neg hf, if_pos hd]

/-- the file decides nothing -/
def PlainFile (file : Str) : Prop :=
  Ordinary file ∧ ¬ HasSuffix file [c!".fits", c!".fit", c!".fz"] ∧ ¬ HasSuffix file desktopExtensions

theorem plain_eq (extra : Bool) (dataset p file : Str) (h : Loadable extra p) (hf : PlainFile file)
    (hd : ¬ Has dataset c!"SLN-L-SP") : pointerToLoader extra dataset p file = byName p file := by
  obtain ⟨ho, h1, h2⟩ := hf
  rw [loadable_eq extra dataset p file h]
  unfold imageLib
  rw [if_neg (fun h' => h1 ((looksLike_fits file ho).1 h')),
    if_neg (fun h' => h2 ((looksLike_desktop file ho).1 h'))]
  have : specialPointer dataset p = none := by
    unfold specialPointer
    rw [← not_has_iff] at hd
    simp [hd]
  rw [this]

theorem byExtension_nodot (p : Str) (h : '.' ∉ p) : byExtension p = .tbd := by
  have hd : '.' ∉ lower p := fun h' => h ((mem_dot_lower p).1 h')
  have hs : suffixes (lower p) = [] := by
    unfold suffixes
    split
    · rfl
    · have : lstripDot (lower p) = lower p := by
        apply lstripDot_ordinary
        intro h'
        exact hd (List.mem_of_head? h')
      rw [this, splitOn_notMem '.' _ hd]
      rfl
  have : ∀ exts, looksLike p exts = false := by
    intro exts; unfold looksLike; rw [hs]; rfl
  unfold byExtension
  simp [this]

/-- **C21 (by name).** In all other files the words in an object's name decide, in this order: texts; arrays;
tables, unless the name says header, name or image; headers; images; everything else is not supported. The
lunar spectral profiler is excepted. -/
theorem C21_by_name (extra : Bool) (dataset p file : Str) (h : Loadable extra p) (hf : PlainFile file)
    (hd : ¬ Has dataset c!"SLN-L-SP") (hdot : '.' ∉ p) :
    (pointerToLoader extra dataset p file = .text ↔ HasAny p textWords) ∧
    (pointerToLoader extra dataset p file = .array ↔ ¬ HasAny p textWords ∧ Has p c!"ARRAY") ∧
    (pointerToLoader extra dataset p file = .table ↔
      ¬ HasAny p textWords ∧ ¬ Has p c!"ARRAY" ∧ HasAny p tableNames ∧ ¬ HasAny p notTables) ∧
    (pointerToLoader extra dataset p file = .header ↔
      ¬ HasAny p textWords ∧ ¬ Has p c!"ARRAY" ∧ (HasAny p tableNames → HasAny p notTables) ∧ Has p c!"HEADER") ∧
    (pointerToLoader extra dataset p file = .image ↔
      ¬ HasAny p textWords ∧ ¬ Has p c!"ARRAY" ∧ (HasAny p tableNames → HasAny p notTables) ∧ ¬ Has p c!"HEADER" ∧
      HasAny p imageWords) ∧
    (pointerToLoader extra dataset p file = .tbd ↔
      ¬ HasAny p textWords ∧ ¬ Has p c!"ARRAY" ∧ (HasAny p tableNames → HasAny p notTables) ∧ ¬ Has p c!"HEADER" ∧
      ¬ HasAny p imageWords) := by
  rw [plain_eq extra dataset p file h hf hd]
  have hff : looksLike file fitsExtensions = false := by
    rw [Bool.eq_false_iff, ne_eq, looksLike_fits file hf.1]; exact hf.2.1
  have htab : (HasAny p tableNames → HasAny p notTables) ↔ tableLike p = false := by
    rw [Bool.eq_false_iff, ne_eq, tableLike_iff]
    constructor
    · rintro h ⟨h1, h2⟩; exact h2 (h h1)
    · intro h h1
      apply Classical.byContradiction
      intro h2; exact h ⟨h1, h2⟩
  have htab' : (HasAny p tableNames ∧ ¬ HasAny p notTables) ↔ tableLike p = true := (tableLike_iff p).symm
  rw [htab, htab', ← text_iff, ← has_iff, ← has_iff, ← image_iff]
  unfold byName
  rw [byExtension_nodot p hdot]
  generalize (contains p c!"TEXT" || contains p c!"PDF" || contains p c!"MAP_PROJECTION_CATALOG" || contains p c!"FILENAME") = t1
  generalize contains p c!"DESC" = t2
  generalize contains p c!"ARRAY" = t3
  generalize tableLike p = t4
  generalize contains p c!"HEADER" = t5
  generalize (contains p c!"IMAGE" || contains p c!"QUB" || contains p c!"XDR_DOCUMENT") = t6
  rw [hff]
  cases t1 <;> cases t2 <;> cases t3 <;> cases t4 <;> cases t5 <;> cases t6 <;> simp

/-! ### numbered objects -/

/-- digits and underscores -/
def isNumbering (s : Str) : Prop := ∀ c ∈ s, c = '_' ∨ ('0' ≤ c ∧ c ≤ '9')

theorem has_numbered (p w num : Str) (hn : isNumbering num) (x : Char) (ws : Str) (hw : w = ws ++ [x])
    (hx : x ≠ '_' ∧ ¬ ('0' ≤ x ∧ x ≤ '9')) : Has (p ++ num) w ↔ Has p w := by
  constructor
  · rintro ⟨a, b, h⟩
    subst hw
    by_cases hlen : p.length < (a ++ (ws ++ [x])).length
    · exfalso
      have h1 : (p ++ num)[(a ++ ws).length]? = some x := by
        rw [h]
        have : a ++ (ws ++ [x]) ++ b = (a ++ ws) ++ x :: b := by simp
        rw [this, List.getElem?_append_right (Nat.le_refl _)]; simp
      rw [List.getElem?_append_right (by simp at hlen ⊢; omega)] at h1
      have := hn x (List.mem_of_getElem? h1)
      rcases this with h' | h'
      · exact hx.1 h'
      · exact hx.2 h'
    · have h1 : p = ((p ++ num).take p.length) := by simp
      rw [h] at h1
      refine ⟨a, b.take (p.length - (a ++ (ws ++ [x])).length), ?_⟩
      refine h1.trans ?_
      rw [List.take_append, List.take_of_length_le (by omega)]
  · rintro ⟨a, b, h⟩
    exact ⟨a, b ++ num, by rw [h]; simp⟩

theorem contains_numbered (p w num : Str) (hn : isNumbering num) (x : Char) (ws : Str) (hw : w = ws ++ [x])
    (hx : x ≠ '_' ∧ ¬ ('0' ≤ x ∧ x ≤ '9')) : contains (p ++ num) w = contains p w := by
  rw [Bool.eq_iff_iff, has_iff, has_iff]
  exact has_numbered p w num hn x ws hw hx

/-- every word that matters ends with a letter -/
theorem words_numbered (p num : Str) (hn : isNumbering num) :
    ∀ w ∈ [c!"TIFF", c!"IMAGE", c!"DOCUMENT", c!"STRUCTURE", c!"PDS_OBJECT", c!"TEXT", c!"PDF", c!"MAP_PROJECTION_CATALOG",
      c!"FILENAME", c!"DESC", c!"ARRAY", c!"HEADER", c!"QUB", c!"XDR_DOCUMENT", c!"FILE_NAME", c!"HISTOGRAM_IMAGE",
      c!"SPECTRUM", c!"ANCILLARY_AND_SUPPLEMENT_DATA"] ++ tableWords ++ tableWords.map (fun w => w ++ c!"_HEADER") ++
      tableWords.map (fun w => w ++ c!"_NAME"), contains (p ++ num) w = contains p w := by
  intro w hw
  have hlast : ∃ ws x, w = ws ++ [x] ∧ x ≠ '_' ∧ ¬ ('0' ≤ x ∧ x ≤ '9') := by
    have hd : ∀ w ∈ [c!"TIFF", c!"IMAGE", c!"DOCUMENT", c!"STRUCTURE", c!"PDS_OBJECT", c!"TEXT", c!"PDF", c!"MAP_PROJECTION_CATALOG",
        c!"FILENAME", c!"DESC", c!"ARRAY", c!"HEADER", c!"QUB", c!"XDR_DOCUMENT", c!"FILE_NAME", c!"HISTOGRAM_IMAGE",
        c!"SPECTRUM", c!"ANCILLARY_AND_SUPPLEMENT_DATA"] ++ tableWords ++ tableWords.map (fun w => w ++ c!"_HEADER") ++
        tableWords.map (fun w => w ++ c!"_NAME"), ∃ x, w.getLast? = some x ∧ x ≠ '_' ∧ ¬ ('0' ≤ x ∧ x ≤ '9') := by
      have : (([c!"TIFF", c!"IMAGE", c!"DOCUMENT", c!"STRUCTURE", c!"PDS_OBJECT", c!"TEXT", c!"PDF", c!"MAP_PROJECTION_CATALOG",
        c!"FILENAME", c!"DESC", c!"ARRAY", c!"HEADER", c!"QUB", c!"XDR_DOCUMENT", c!"FILE_NAME", c!"HISTOGRAM_IMAGE",
        c!"SPECTRUM", c!"ANCILLARY_AND_SUPPLEMENT_DATA"] ++ tableWords ++ tableWords.map (fun w => w ++ c!"_HEADER") ++
        tableWords.map (fun w => w ++ c!"_NAME")).all (fun w => match w.getLast? with
          | some x => decide (x ≠ '_' ∧ ¬ ('0' ≤ x ∧ x ≤ '9'))
          | none => false)) = true := by decide
      intro w hw
      have := List.all_eq_true.1 this w hw
      cases hl : w.getLast? with
      | none => rw [hl] at this; cases this
      | some x => rw [hl] at this; exact ⟨x, rfl, of_decide_eq_true this⟩
    obtain ⟨x, h1, h2⟩ := hd w hw
    obtain ⟨ws, h3⟩ := List.getLast?_eq_some_iff.1 h1
    exact ⟨ws, x, h3, h2⟩
  obtain ⟨ws, x, h1, h2⟩ := hlast
  exact contains_numbered p w num hn x ws h1 h2

/-- **C21 (numbered objects).** Numbered objects (`IMAGE_2`, `TABLE_12`) get the same loader as unnumbered ones. -/
theorem C21_numbered (extra : Bool) (dataset p file num : Str) (hn : isNumbering num) (hl : p ≠ c!"LABEL")
    (hl' : p ++ num ≠ c!"LABEL") (hdot : '.' ∉ p) :
    pointerToLoader extra dataset (p ++ num) file = pointerToLoader extra dataset p file := by
  have hw := words_numbered p num hn
  have hdot' : '.' ∉ p ++ num := by
    intro h
    rcases List.mem_append.1 h with h | h
    · exact hdot h
    · rcases hn '.' h with h | h
      · cases h
      · exact absurd h (by decide)
  have ht : tableLike (p ++ num) = tableLike p := by
    unfold tableLike
    have e1 : tableWords.any (contains (p ++ num)) = tableWords.any (contains p) := by
      rw [Bool.eq_iff_iff, List.any_eq_true, List.any_eq_true]
      constructor
      · rintro ⟨w, h1, h2⟩; exact ⟨w, h1, by rw [← hw w (by simp [h1])]; exact h2⟩
      · rintro ⟨w, h1, h2⟩; exact ⟨w, h1, by rw [hw w (by simp [h1])]; exact h2⟩
    have e2 : ∀ sfx, (∀ w ∈ tableWords, contains (p ++ num) (w ++ sfx) = contains p (w ++ sfx)) →
        tableWords.any (fun w => contains (p ++ num) (w ++ sfx)) = tableWords.any (fun w => contains p (w ++ sfx)) := by
      intro sfx h
      rw [Bool.eq_iff_iff, List.any_eq_true, List.any_eq_true]
      constructor
      · rintro ⟨w, h1, h2⟩; exact ⟨w, h1, by rw [← h w h1]; exact h2⟩
      · rintro ⟨w, h1, h2⟩; exact ⟨w, h1, by rw [h w h1]; exact h2⟩
    rw [e1, e2 c!"_HEADER", e2 c!"_NAME", hw c!"HISTOGRAM_IMAGE" (by simp)]
    · intro w h1
      exact hw _ (List.mem_append.2 (.inr (List.mem_map.2 ⟨w, h1, rfl⟩)))
    · intro w h1
      exact hw _ (List.mem_append.2 (.inl (List.mem_append.2 (.inr (List.mem_map.2 ⟨w, h1, rfl⟩)))))
  have hby : byName (p ++ num) file = byName p file := by
    unfold byName
    rw [ht, byExtension_nodot p hdot, byExtension_nodot _ hdot', hw c!"TEXT" (by simp), hw c!"PDF" (by simp),
      hw c!"MAP_PROJECTION_CATALOG" (by simp), hw c!"FILENAME" (by simp), hw c!"DESC" (by simp), hw c!"ARRAY" (by simp),
      hw c!"HEADER" (by simp), hw c!"IMAGE" (by simp), hw c!"QUB" (by simp), hw c!"XDR_DOCUMENT" (by simp),
      hw c!"FILE_NAME" (by simp)]
  unfold pointerToLoader
  rw [if_neg (fun h : p ++ num = c!"LABEL" => hl' h), if_neg hl, hby]
  unfold isTrivial specialPointer
  rw [hw c!"TIFF" (by simp), hw c!"IMAGE" (by simp), hw c!"DOCUMENT" (by simp), hw c!"STRUCTURE" (by simp),
    hw c!"PDS_OBJECT" (by simp), hw c!"SPECTRUM" (by simp), hw c!"ANCILLARY_AND_SUPPLEMENT_DATA" (by simp)]

/-! ### C50: limits -/

/-- **C50 (limit).** An object named only by a FILE_NAME pointer is not supported whatever its file is: the
extension that is looked at is that of the pointer's own name. -/
theorem C50_file_name_pointers (extra : Bool) (dataset file num : Str) (hn : isNumbering num) (he : extra = false)
    (hf : PlainFile file) (hd : ¬ Has dataset c!"SLN-L-SP") :
    pointerToLoader extra dataset (c!"FILE_NAME" ++ num) file = .tbd := by
  have hne : c!"FILE_NAME" ++ num ≠ c!"LABEL" := by
    intro h
    have := congrArg List.head? h
    simp at this
  rw [C21_numbered extra dataset c!"FILE_NAME" file num hn (by decide) hne (by decide)]
  have hl : Loadable extra c!"FILE_NAME" := by
    refine ⟨?_, he, by decide⟩
    rw [← isTrivial_iff]; decide
  rw [plain_eq extra dataset _ file hl hf hd]
  unfold byName
  have h1 : contains c!"FILE_NAME" c!"HEADER" = false := by decide
  have h2 : tableLike c!"FILE_NAME" = false := by decide
  rw [byExtension_nodot _ (by decide), h1, h2]
  simp only [Bool.false_eq_true, if_false]
  decide

/-- **C50 (limit).** A suffix anywhere in the file name counts, not only the last: any name of the form
`base.fits.rest` is read as FITS. -/
theorem C50_inner_suffix (extra : Bool) (dataset p base rest : Str) (h : Loadable extra p)
    (ho : Ordinary (base ++ c!".fits." ++ rest)) (hb : base ≠ []) :
    pointerToLoader extra dataset p (base ++ c!".fits." ++ rest) = .fits := by
  refine (C21_by_file extra dataset p _ h ho).1 ⟨c!".fits", by simp, lower base, '.' :: lower rest, ?_, ?_, .inr rfl⟩
  · rw [lower_append, lower_append]
    have : lower c!".fits." = c!".fits" ++ c!"." := by rfl
    rw [this]; simp
  · simpa [lower] using hb

/-! ### examples -/

example : Loadable false c!"IMAGE" := ⟨by rw [← isTrivial_iff]; decide, rfl, by decide⟩
example : pointerToLoader false c!"MSL-M-MAHLI" c!"IMAGE_HEADER" c!"a.img" = .header := by decide
example : pointerToLoader false c!"MSL-M-MAHLI" c!"TABLE_12" c!"a.tab" = .table := by decide
example : pointerToLoader false c!"MSL-M-MAHLI" c!"HISTOGRAM_IMAGE" c!"a.dat" = .image := by decide
example : pointerToLoader false c!"MSL-M-MAHLI" c!"FILE_NAME" c!"a.tab" = .tbd := by decide
example : pointerToLoader false c!"X" c!"IMAGE" c!"a.FITS.gz" = .fits := by decide

end Verif.Dispatch
