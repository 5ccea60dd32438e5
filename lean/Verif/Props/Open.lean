/-
C86: how a product is opened; C87: limits.
-/
import Verif.Spec.Open
import Verif.Props.Files
import Verif.Props.Datatypes
import Verif.Lemmas.Str

namespace Verif.Open
open Verif.Py Verif.Files Verif.Files.Spec Verif.Open.Spec

variable {D : Type}

/-! ### names -/

theorem endsWith_iff (s x : Str) : endsWith s x = true ↔ x <:+ s := List.isSuffixOf_iff_suffix

theorem suffix_text {d n x : Str} (hx : '/' ∉ x) : x <:+ d ++ '/' :: n ↔ x <:+ n := by
  constructor
  · rintro ⟨t, h⟩
    rcases List.append_eq_append_iff.mp h with ⟨y, h1, h2⟩ | ⟨y, h1, h2⟩
    · exact absurd (by rw [h2]; simp) hx
    · cases y with
      | nil => rw [List.nil_append] at h2; exact absurd (by rw [← h2]; simp) hx
      | cons c y =>
        simp only [List.cons_append, List.cons.injEq] at h2
        exact ⟨y, h2.2.symm⟩
  · exact fun h => h.trans ⟨d ++ ['/'], by simp⟩

theorem lower_append (a b : Str) : lower (a ++ b) = lower a ++ lower b := List.map_append

theorem lower_text (w : World D) (p : D × Str) : lower (text w p) = lower (w.dirText p.1) ++ '/' :: lower p.2 := by
  unfold text
  rw [lower_append]
  rfl

theorem fits_iff (w : World D) (p : D × Str) :
    fitsExtensions.any (endsWith (lower (text w p))) = true ↔ FitsName p.2 := by
  rw [List.any_eq_true]
  unfold FitsName
  refine exists_congr fun x => and_congr_right fun hx => ?_
  rw [endsWith_iff, lower_text]
  refine suffix_text ?_
  simp only [fitsExtensions, List.mem_cons, List.not_mem_nil, or_false] at hx
  rcases hx with rfl | rfl | rfl | rfl | rfl <;> decide

theorem split_head (s h : Str) (t : List Str) (hs : splitOn '.' s = h :: t) :
    ∃ b, s = h ++ b ∧ (b = [] ∨ ∃ c, b = '.' :: c) := by
  induction s generalizing h t with
  | nil =>
    simp only [splitOn, List.cons.injEq] at hs
    exact ⟨[], by rw [← hs.1]; rfl, .inl rfl⟩
  | cons c s ih =>
    simp only [splitOn] at hs
    by_cases hc : c = '.'
    · rw [if_pos hc] at hs
      simp only [List.cons.injEq] at hs
      exact ⟨c :: s, by rw [← hs.1]; rfl, .inr ⟨s, by rw [hc]⟩⟩
    · rw [if_neg hc] at hs
      cases hq : splitOn '.' s with
      | nil => exact absurd hq (splitOn_ne_nil '.' s)
      | cons w ws =>
        rw [hq] at hs
        simp only [List.cons.injEq] at hs
        obtain ⟨b, h1, h2⟩ := ih w ws hq
        exact ⟨b, by rw [← hs.1, List.cons_append, ← h1], h2⟩

theorem split_tail (s w : Str) (hw : '.' ∉ w) :
    w ∈ (splitOn '.' s).tail ↔ ∃ a b, s = a ++ ('.' :: w) ++ b ∧ (b = [] ∨ ∃ c, b = '.' :: c) := by
  constructor
  · intro h
    induction s with
    | nil => simp [splitOn] at h
    | cons c s ih =>
      simp only [splitOn] at h
      by_cases hc : c = '.'
      · rw [if_pos hc, List.tail_cons] at h
        cases hq : splitOn '.' s with
        | nil => exact absurd hq (splitOn_ne_nil '.' s)
        | cons x xs =>
          rw [hq] at h
          rcases List.mem_cons.mp h with rfl | h
          · obtain ⟨b, h1, h2⟩ := split_head s w xs hq
            exact ⟨[], b, by rw [hc, h1]; rfl, h2⟩
          · rw [hq] at ih
            obtain ⟨a, b, h1, h2⟩ := ih h
            exact ⟨c :: a, b, by rw [h1]; simp, h2⟩
      · rw [if_neg hc] at h
        cases hq : splitOn '.' s with
        | nil => exact absurd hq (splitOn_ne_nil '.' s)
        | cons x xs =>
          rw [hq] at h ih
          obtain ⟨a, b, h1, h2⟩ := ih h
          exact ⟨c :: a, b, by rw [h1]; simp, h2⟩
  · rintro ⟨a, b, rfl, hb⟩
    rw [List.append_assoc, List.cons_append, splitOn_append_gen]
    have hne := splitOn_ne_nil '.' a
    have hm : w ∈ splitOn '.' (w ++ b) := by
      rcases hb with rfl | ⟨c, rfl⟩
      · rw [List.append_nil, splitOn_notMem _ _ hw]; simp
      · rw [splitOn_append _ _ _ hw]; simp
    cases hq : splitOn '.' a with
    | nil => exact absurd hq hne
    | cons x xs =>
      rw [List.cons_append, List.tail_cons]
      exact List.mem_append_right _ hm

theorem ordinary_lower {n : Str} (h : Ordinary n) : Ordinary (lower n) := by
  obtain ⟨h1, h2, h3⟩ := h
  refine ⟨by simpa [lower] using h1, ?_, ?_⟩
  · unfold lower
    rw [List.head?_map]
    intro hE
    obtain ⟨c, hc, hd⟩ := Option.map_eq_some_iff.mp hE
    rw [(lowerC_dot c).mp hd] at hc
    exact h2 hc
  · unfold lower
    rw [List.getLast?_map]
    intro hE
    obtain ⟨c, hc, hd⟩ := Option.map_eq_some_iff.mp hE
    rw [(lowerC_dot c).mp hd] at hc
    exact h3 hc

theorem picture_iff (n : Str) (hn : Ordinary n) :
    (suffixes (lower n)).any (fun x => pictureExtensions.contains x) = true ↔ PictureName n := by
  obtain ⟨_, h2, h3⟩ := ordinary_lower hn
  have hs : suffixes (lower n) = (splitOn '.' (lower n)).tail.map (fun w => '.' :: w) := by
    unfold suffixes
    rw [if_neg (fun h' => h3 ((endsWith_dot _).1 h')), lstripDot_ordinary _ h2]
  rw [hs, List.any_eq_true]
  unfold PictureName
  constructor
  · rintro ⟨x, hx, hm⟩
    obtain ⟨w, hw, rfl⟩ := List.mem_map.mp hx
    have hm : '.' :: w ∈ pictureExtensions := by simpa using hm
    refine ⟨'.' :: w, hm, ?_⟩
    exact (split_tail _ w (splitOn_parts '.' _ w (List.mem_of_mem_tail hw))).mp hw
  · rintro ⟨x, hx, a, b, h, hb⟩
    have hx' : ∃ w, x = '.' :: w ∧ '.' ∉ w := by
      simp only [List.mem_cons, List.not_mem_nil, or_false] at hx
      rcases hx with rfl | rfl | rfl | rfl | rfl | rfl | rfl | rfl | rfl | rfl | rfl | rfl <;> exact ⟨_, rfl, by decide⟩
    obtain ⟨w, rfl, hw⟩ := hx'
    refine ⟨'.' :: w, List.mem_map.mpr ⟨w, (split_tail _ w hw).mpr ⟨a, b, h, hb⟩, rfl⟩, ?_⟩
    rw [List.contains_iff_mem]
    exact hx

theorem pds4_iff (w : World D) (p : D × Str) : isPds4Label (text w p) = true ↔ Pds4Name (w.dirText p.1) p.2 := by
  unfold isPds4Label Pds4Name
  rw [Bool.or_eq_true, Bool.or_eq_true, Bool.and_eq_true, endsWith_iff, endsWith_iff, Datatypes.contains_iff, List.any_eq_true, or_assoc]
  unfold text
  rw [suffix_text (by decide), suffix_text (by decide)]
  refine or_congr Iff.rfl (or_congr Iff.rfl (and_congr Iff.rfl ?_))
  refine exists_congr fun x => and_congr_right fun hx => ?_
  rw [endsWith_iff]
  refine suffix_text ?_
  simp only [List.mem_cons, List.not_mem_nil, or_false] at hx
  rcases hx with rfl | rfl | rfl | rfl <;> decide

/-! ### how a product is read -/

/-- the file is a picture pillow knows and pdr reads -/
def IsPicture (w : World D) (p : D × Str) (f : Str) : Prop := PictureName p.2 ∧ w.pil p = .format f ∧ PictureFormat f

theorem primaryFormat_fits {w : World D} {p : D × Str} (h : FitsName p.2) : primaryFormat w p = .ok (some .fits) := by
  unfold primaryFormat
  rw [if_pos ((fits_iff w p).mpr h)]

theorem primaryFormat_picture {w : World D} {p : D × Str} (ho : Ordinary p.2) (h : ¬ FitsName p.2) {f : Str} (hp : IsPicture w p f) :
    primaryFormat w p = .ok (some (.picture f)) := by
  unfold primaryFormat
  rw [if_neg (fun h' => h ((fits_iff w p).mp h')), if_pos ((picture_iff p.2 ho).mpr hp.1), hp.2.1]
  simp only
  rw [if_pos (show f ∈ pictureStandards from hp.2.2)]

theorem primaryFormat_none {w : World D} {p : D × Str} (ho : Ordinary p.2) (h : ¬ FitsName p.2) (hp : ∀ f, ¬ IsPicture w p f)
    (he : PictureName p.2 → ∀ e, w.pil p ≠ .fails e) : primaryFormat w p = .ok none := by
  unfold primaryFormat
  rw [if_neg (fun h' => h ((fits_iff w p).mp h'))]
  by_cases hn : PictureName p.2
  · rw [if_pos ((picture_iff p.2 ho).mpr hn)]
    cases hq : w.pil p with
    | format f =>
      simp only
      rw [if_neg (show ¬ f ∈ pictureStandards from fun hf => hp f ⟨hn, hq, hf⟩)]
    | unidentified => rfl
    | fails e => exact absurd hq (he hn e)
  · rw [if_neg (fun h' => hn ((picture_iff p.2 ho).mp h'))]

/-- **C86 (how it is read).** Whenever a product is opened, the name of its label, or of the file itself if it has none, decides how it is read:
as FITS exactly if this is the name of a FITS file; as a picture of the format pillow finds exactly if it has the suffix of a picture and is one;
with a PDS4 label exactly if there is a label, it is none of these and its name is that of a PDS4 label; as PDS3 in all other cases. -/
theorem C86_standard (w : World D) (given : Option Str) (p : D × Str) (label : Option (D × Str)) (skip : Bool) (o : Opened D)
    (h : openProduct w given p label skip = .ok o) (ho : Ordinary (o.label.getD o.file).2) :
    (o.standard = .fits ↔ FitsName (o.label.getD o.file).2) ∧
    (∀ f, o.standard = .picture f ↔ ¬ FitsName (o.label.getD o.file).2 ∧ IsPicture w (o.label.getD o.file) f) ∧
    (o.standard = .pds4 ↔ ¬ FitsName (o.label.getD o.file).2 ∧ (∀ f, ¬ IsPicture w (o.label.getD o.file) f) ∧
      ∃ l, o.label = some l ∧ Pds4Name (w.dirText l.1) l.2) := by
  unfold openProduct at h
  by_cases hu : (given.map isUrl).getD false = true
  · rw [if_pos hu] at h; cases h
  rw [if_neg hu] at h
  cases hf : fileFor w p skip with
  | error e => rw [hf] at h; cases h
  | ok file =>
    rw [hf] at h
    simp only [Except.bind] at h
    cases hl : labelFor w.fs (text w file) file label skip with
    | error e => rw [hl] at h; cases h
    | ok l =>
      rw [hl] at h
      simp only at h
      cases hs : standardFor w file l with
      | error e => rw [hs] at h; cases h
      | ok s =>
        rw [hs] at h
        cases h
        simp only at ho ⊢
        unfold standardFor at hs
        by_cases hF : FitsName (l.getD file).2
        · rw [primaryFormat_fits hF] at hs
          cases hs
          simp [hF]
        · by_cases hP : ∃ f, IsPicture w (l.getD file) f
          · obtain ⟨f, hP⟩ := hP
            rw [primaryFormat_picture ho hF hP] at hs
            cases hs
            refine ⟨by simp [hF], fun g => ?_, ?_⟩
            · simp only [Standard.picture.injEq, hF, not_false_eq_true, true_and]
              constructor
              · rintro rfl; exact hP
              · intro hg
                have := hP.2.1.symm.trans hg.2.1
                cases this
                rfl
            · simp only [reduceCtorEq, hF, not_false_eq_true, true_and, false_iff, not_and]
              intro hn
              exact absurd hP (hn f)
          · have hP : ∀ f, ¬ IsPicture w (l.getD file) f := fun f hf => hP ⟨f, hf⟩
            have hE : PictureName (l.getD file).2 → ∀ e, w.pil (l.getD file) ≠ .fails e := by
              intro hn e he
              unfold primaryFormat at hs
              rw [if_neg (fun h' => hF ((fits_iff w _).mp h')), if_pos ((picture_iff _ ho).mpr hn), he] at hs
              cases hs
            rw [primaryFormat_none ho hF hP hE] at hs
            simp only [Except.map, Except.ok.injEq] at hs
            subst hs
            cases l with
            | none =>
              simp only [Option.getD_none] at hF hP ⊢
              exact ⟨by simp [hF], fun f => by simp [hP f], by simp⟩
            | some q =>
              simp only [Option.getD_some] at hF hP ⊢
              by_cases hq : Pds4Name (w.dirText q.1) q.2
              · rw [if_pos ((pds4_iff w q).mpr hq)]
                simp only [reduceCtorEq, hF, hP, hq, Option.some.injEq, not_false_eq_true, implies_true, true_and, exists_eq_left', iff_true,
                  iff_false]
              · rw [if_neg (fun h' => hq ((pds4_iff w q).mp h'))]
                simp only [reduceCtorEq, hF, hP, hq, Option.some.injEq, not_false_eq_true, implies_true, true_and, exists_eq_left', iff_false]

/-! ### which file, which label -/

/-- **C86 (URLs).** A URL given as text is a ValueError, whatever is there. -/
theorem C86_url (w : World D) (s : Str) (p : D × Str) (label : Option (D × Str)) (skip : Bool)
    (h : c!"http:" <+: lower s ∨ c!"https:" <+: lower s ∨ c!"ftp:" <+: lower s) :
    openProduct w (some s) p label skip = .error .valueError := by
  unfold openProduct
  have : isUrl s = true := by
    unfold isUrl
    rw [Bool.or_eq_true, Bool.or_eq_true, or_assoc]
    simp only [startsWith, List.isPrefixOf_iff_prefix]
    exact h
  simp [this]

theorem noUrl {given : Option Str} (h : ∀ s, given = some s → isUrl s = false) : ¬ (given.map isUrl).getD false = true := by
  cases given with
  | none => simp
  | some s => simp [h s rfl]

/-- **C86 (file).** The file of an opened product is the one asked for, if it exists or existence is not checked; otherwise the first entry
of its directory that matches loosely (C19); if there is none, FileNotFoundError. -/
theorem C86_file (w : World D) (given : Option Str) (p : D × Str) (label : Option (D × Str)) :
    (∀ o, openProduct w given p label true = .ok o → o.file = p) ∧
    (∀ o, w.fs.exists p = true → openProduct w given p label false = .ok o → o.file = p) ∧
    (∀ o m ms, w.fs.exists p = false → matching w.fs p = m :: ms → openProduct w given p label false = .ok o → o.file = (p.1, m)) ∧
    (¬ Available w.fs p → (∀ s, given = some s → isUrl s = false) → openProduct w given p label false = .error .fileNotFound) := by
  have key : ∀ skip o q, fileFor w p skip = .ok q → openProduct w given p label skip = .ok o → o.file = q := by
    intro skip o q hf h
    unfold openProduct at h
    by_cases hu : (given.map isUrl).getD false = true
    · rw [if_pos hu] at h; cases h
    rw [if_neg hu, hf] at h
    simp only [Except.bind] at h
    cases hl : labelFor w.fs (text w q) q label skip with
    | error e => rw [hl] at h; cases h
    | ok l =>
      rw [hl] at h
      simp only at h
      cases hs : standardFor w q l with
      | error e => rw [hs] at h; cases h
      | ok s => rw [hs] at h; cases h; rfl
  refine ⟨fun o h => key true o p rfl h, ?_, ?_, ?_⟩
  · intro o he h
    refine key false o p ?_ h
    unfold fileFor
    simp [checkCases, he, Except.map]
  · intro o m ms he hm h
    refine key false o (p.1, m) ?_ h
    unfold fileFor
    simp [checkCases, he, hm, Except.map]
  · intro ha hu
    unfold openProduct
    rw [if_neg (noUrl hu)]
    have : checkCases w.fs [p] = .error .fileNotFound := by
      rw [C19_not_found_iff]
      intro q hq
      rw [List.mem_singleton] at hq
      rw [hq]
      exact ha
    unfold fileFor
    simp [this, Except.map, Except.bind]

/-- the name of a label file, so that it is its own label -/
theorem labelName_iff (w : World D) (p : D × Str) : isLabelName (text w p) = true ↔ LabelName (w.dirText p.1) p.2 := by
  unfold isLabelName LabelName
  rw [Bool.or_eq_true, Bool.and_eq_true, List.any_eq_true, List.any_eq_true, List.any_eq_true]
  have hl : lower (w.dirText p.1 ++ '/' :: p.2) = lower (w.dirText p.1) ++ '/' :: lower p.2 := lower_text w p
  refine or_congr ?_ (and_congr ?_ ?_)
  · refine exists_congr fun x => and_congr_right fun hx => ?_
    rw [endsWith_iff, lower_text]
    refine suffix_text ?_
    simp only [labelExtensions, List.mem_cons, List.not_mem_nil, or_false] at hx
    rcases hx with rfl | rfl | rfl <;> decide
  · refine exists_congr fun x => and_congr_right fun hx => ?_
    rw [Datatypes.contains_iff, lower_text, hl]
  · refine exists_congr fun x => and_congr_right fun hx => ?_
    rw [endsWith_iff, lower_text]
    refine suffix_text ?_
    simp only [changeExtensions, List.mem_cons, List.not_mem_nil, or_false] at hx
    rcases hx with rfl | rfl | rfl | rfl | rfl | rfl | rfl <;> decide

theorem labelFor_own {fs : FS D} {t : Str} {p : D × Str} {skip : Bool} (h : isLabelName t = true) :
    labelFor fs t p none skip = (checkCases fs [p]).map (fun r => some r.1) := by
  unfold labelFor
  simp only
  unfold isLabelName at h
  rw [if_pos h]

theorem suffix_ext_last {n x : Str} {c : Char} (h : x <:+ n) (hx : x.getLast? = some c) : n.getLast? = some c := by
  obtain ⟨t, rfl⟩ := h
  rw [List.getLast?_append, hx]
  rfl

/-- names that end in .xml, .lbl or .lblx are not those of FITS files -/
theorem label_not_fits {n : Str} {x : Str} (hx : x ∈ [c!".xml", c!".lbl", c!".lblx"]) (h : x <:+ lower n) : ¬ FitsName n := by
  rintro ⟨y, hy, hyn⟩
  have h1 : (lower n).getLast? = some 'l' ∨ (lower n).getLast? = some 'x' := by
    simp only [List.mem_cons, List.not_mem_nil, or_false] at hx
    rcases hx with rfl | rfl | rfl
    · exact .inl (suffix_ext_last h rfl)
    · exact .inl (suffix_ext_last h rfl)
    · exact .inr (suffix_ext_last h rfl)
  have h2 : (lower n).getLast? = some 's' ∨ (lower n).getLast? = some 't' ∨ (lower n).getLast? = some 'z' := by
    simp only [List.mem_cons, List.not_mem_nil, or_false] at hy
    rcases hy with rfl | rfl | rfl | rfl | rfl
    · exact .inl (suffix_ext_last hyn rfl)
    · exact .inr (.inl (suffix_ext_last hyn rfl))
    · exact .inr (.inr (suffix_ext_last hyn rfl))
    · exact .inr (.inr (suffix_ext_last hyn rfl))
    · exact .inr (.inr (suffix_ext_last hyn rfl))
  rcases h1 with h1 | h1 <;> rw [h1] at h2 <;> simp at h2

/-- **C86 (a label beside the file).** A file that is not a label itself, opened by its own name, without naming a label: if a label of the same name
with .xml, .lbl or .lblx (in this order) is in its directory, then this is the label, and the product is PDS4, PDS3, PDS4, respectively. -/
theorem C86_beside (w : World D) (given : Option Str) (d : D) (base old : Str) (skip : Bool)
    (hu : ∀ s, given = some s → isUrl s = false) (hb : base ≠ []) (hbd : base.head? ≠ some '.') (hold : old ≠ []) (hd : '.' ∉ old)
    (he : w.fs.exists (d, base ++ '.' :: old) = true) (hn : ¬ LabelName (w.dirText d) (base ++ '.' :: old))
    (pre post : List Str) (x : Str) (hx : [c!".xml", c!".lbl", c!".lblx"] = pre ++ x :: post)
    (hpre : ∀ y ∈ pre, ¬ Available w.fs (d, base ++ y)) (hl : w.fs.exists (d, base ++ x) = true)
    (hce : ¬ c!"CE" <:+: w.dirText d ++ '/' :: (base ++ x)) (hpil : PictureName (base ++ x) → w.pil (d, base ++ x) = .unidentified) :
    openProduct w given (d, base ++ '.' :: old) none skip =
      .ok { file := (d, base ++ '.' :: old), label := some (d, base ++ x), standard := if x = c!".lbl" then .pds3 else .pds4 } := by
  unfold openProduct
  rw [if_neg (noUrl hu)]
  have hf : fileFor w (d, base ++ '.' :: old) skip = .ok (d, base ++ '.' :: old) := by
    unfold fileFor
    split
    · rfl
    · simp [checkCases, he, Except.map]
  rw [hf]
  simp only [Except.bind]
  have hws : ∀ y, withSuffix (base ++ '.' :: old) y = base ++ y := fun y => (C19_with_extension base old y hb hold hd).1
  have hlab : labelFor w.fs (text w (d, base ++ '.' :: old)) (d, base ++ '.' :: old) none skip = .ok (some (d, base ++ x)) := by
    obtain ⟨q, wn, h1, h2⟩ := (C19_label w.fs (text w (d, base ++ '.' :: old)) (d, base ++ '.' :: old) skip).2.1
      (by rw [← Bool.not_eq_true, labelName_iff]; exact hn) pre x post hx
      (by intro y hy; simp only [hws]; exact hpre y hy) (by simp only [hws]; exact .inl hl)
    simp only [hws] at h1
    have : checkCases w.fs [(d, base ++ x)] = .ok ((d, base ++ x), false) := by
      simp [checkCases, hl]
    rw [this] at h1
    cases h1
    exact h2
  rw [hlab]
  simp only
  have hxm : x ∈ [c!".xml", c!".lbl", c!".lblx"] := by rw [hx]; simp
  have hxl : lower x = x ∧ x.getLast? ≠ some '.' ∧ x ≠ [] := by
    simp only [List.mem_cons, List.not_mem_nil, or_false] at hxm
    rcases hxm with rfl | rfl | rfl <;> exact ⟨by decide, by decide, by decide⟩
  have hord : Ordinary (base ++ x) := by
    refine ⟨by simp [hb], ?_, ?_⟩
    · cases base with
      | nil => exact absurd rfl hb
      | cons c b => exact hbd
    · rw [List.getLast?_append]
      cases hq : x.getLast? with
      | none => exact absurd (List.getLast?_eq_none_iff.mp hq) hxl.2.2
      | some c => intro hE; exact hxl.2.1 (hq.trans hE)
  have hnf : ¬ FitsName (base ++ x) := label_not_fits hxm (by rw [lower_append, hxl.1]; exact ⟨lower base, rfl⟩)
  have hpf : primaryFormat w (d, base ++ x) = .ok none := by
    refine primaryFormat_none hord hnf ?_ ?_
    · rintro f ⟨h1, h2, _⟩
      have := hpil h1
      rw [h2] at this
      cases this
    · intro h1 e h2
      have := hpil h1
      rw [h2] at this
      cases this
  unfold standardFor
  simp only [Option.getD_some, hpf, Except.map]
  congr 2
  have hp4 : isPds4Label (text w (d, base ++ x)) = true ↔ x ≠ c!".lbl" := by
    rw [pds4_iff]
    unfold Pds4Name
    simp only [List.mem_cons, List.not_mem_nil, or_false] at hxm
    rcases hxm with rfl | rfl | rfl
    · simp only [ne_eq, iff_true_right (show ¬ c!".xml" = c!".lbl" by decide)]
      exact .inl ⟨base, rfl⟩
    · simp only [ne_eq, not_true_eq_false, iff_false, not_or, not_and]
      refine ⟨?_, ?_, fun h => absurd h hce⟩
      · rintro ⟨t, h⟩
        have := congrArg (fun l => (List.reverse l).take 2) h
        simp at this
      · rintro ⟨t, h⟩
        have := congrArg (fun l => (List.reverse l).take 1) h
        simp at this
    · simp only [ne_eq, iff_true_right (show ¬ c!".lblx" = c!".lbl" by decide)]
      exact .inr (.inl ⟨base, rfl⟩)
  by_cases h : x = c!".lbl"
  · rw [if_pos h, if_neg (fun h' => hp4.mp h' h)]
  · rw [if_neg h, if_pos (hp4.mpr h)]

/-- **C86 (without a label).** A file that is not a label and has none beside it is read by its name: as FITS, as a picture, or else as PDS3
with an attached label. -/
theorem C86_alone (w : World D) (given : Option Str) (p : D × Str) (skip : Bool) (hu : ∀ s, given = some s → isUrl s = false)
    (hp : Ordinary p.2) (he : w.fs.exists p = true) (hn : ¬ LabelName (w.dirText p.1) p.2)
    (ha : ∀ y ∈ [c!".xml", c!".lbl", c!".lblx"], ¬ Available w.fs (p.1, withSuffix p.2 y))
    (hpil : PictureName p.2 → ∀ e, w.pil p ≠ .fails e) :
    ∃ s, openProduct w given p none skip = .ok { file := p, label := none, standard := s } ∧
      (FitsName p.2 → s = .fits) ∧ (¬ FitsName p.2 → ∀ f, IsPicture w p f → s = .picture f) ∧
      (¬ FitsName p.2 → (∀ f, ¬ IsPicture w p f) → s = .pds3) := by
  have hf : fileFor w p skip = .ok p := by
    unfold fileFor
    split
    · rfl
    · simp [checkCases, he, Except.map]
  have hl := (C19_label w.fs (text w p) p skip).1 (by rw [← Bool.not_eq_true, labelName_iff]; exact hn) ha
  have e : ∀ s, standardFor w p none = .ok s → openProduct w given p none skip = .ok { file := p, label := none, standard := s } := by
    intro s hs
    unfold openProduct
    rw [if_neg (noUrl hu), hf]
    simp only [Except.bind]
    rw [hl]
    simp only
    rw [hs]
    rfl
  by_cases hF : FitsName p.2
  · refine ⟨.fits, e _ ?_, fun _ => rfl, fun h => absurd hF h, fun h => absurd hF h⟩
    unfold standardFor
    rw [Option.getD_none, primaryFormat_fits hF]
    rfl
  · by_cases hP : ∃ f, IsPicture w p f
    · obtain ⟨f, hP⟩ := hP
      refine ⟨.picture f, e _ ?_, fun h => absurd h hF, fun _ g hg => ?_, fun _ h => absurd hP (h f)⟩
      · unfold standardFor
        rw [Option.getD_none, primaryFormat_picture hp hF hP]
        rfl
      · have := hP.2.1.symm.trans hg.2.1
        cases this
        rfl
    · have hP : ∀ f, ¬ IsPicture w p f := fun f hf => hP ⟨f, hf⟩
      refine ⟨.pds3, e _ ?_, fun h => absurd h hF, fun _ g hg => absurd hg (hP g), fun _ _ => rfl⟩
      unfold standardFor
      rw [Option.getD_none, primaryFormat_none hp hF hP hpil]
      rfl

/-- **C86 (the label itself).** Opening a label that exists makes it both file and label. -/
theorem C86_label_itself (w : World D) (given : Option Str) (p : D × Str) (skip : Bool) (he : w.fs.exists p = true)
    (hn : LabelName (w.dirText p.1) p.2) (o : Opened D) (h : openProduct w given p none skip = .ok o) :
    o.file = p ∧ o.label = some p := by
  have hf : fileFor w p skip = .ok p := by
    unfold fileFor
    split
    · rfl
    · simp [checkCases, he, Except.map]
  unfold openProduct at h
  by_cases hu : (given.map isUrl).getD false = true
  · rw [if_pos hu] at h; cases h
  rw [if_neg hu, hf] at h
  simp only [Except.bind] at h
  have hl : labelFor w.fs (text w p) p none skip = .ok (some p) := by
    rw [labelFor_own ((labelName_iff w p).mpr hn)]
    simp [checkCases, he, Except.map]
  rw [hl] at h
  simp only at h
  cases hs : standardFor w p (some p) with
  | error e => rw [hs] at h; cases h
  | ok s => rw [hs] at h; cases h; exact ⟨rfl, rfl⟩

/-! ### limits -/

/-- **C87 (limit).** A label whose name ends in .XML or .LBLX (any spelling but .xml and .lblx) is found, but never read as PDS4: such a product is PDS3
if its name has no suffix of a picture. The same for Chang'e labels of other levels or in small letters. -/
theorem C87_not_pds4 (w : World D) (given : Option Str) (p : D × Str) (label : Option (D × Str)) (skip : Bool) (o : Opened D)
    (h : openProduct w given p label skip = .ok o) (l : D × Str) (hl : o.label = some l) (ho : Ordinary l.2)
    (hx : ¬ c!".xml" <:+ l.2 ∧ ¬ c!".lblx" <:+ l.2)
    (hce : ∀ x ∈ [c!".2BL", c!".2AL", c!".2CL", c!".01L"], ¬ x <:+ l.2) :
    o.standard ≠ .pds4 ∧ (¬ FitsName l.2 → ¬ PictureName l.2 → o.standard = .pds3) := by
  obtain ⟨h1, h2, h3⟩ := C86_standard w given p label skip o h (by rw [hl]; exact ho)
  rw [hl] at h1 h2 h3
  simp only [Option.getD_some] at h1 h2 h3
  have hp4 : o.standard ≠ .pds4 := by
    intro hE
    obtain ⟨_, _, q, hq, hn⟩ := h3.mp hE
    cases hq
    rcases hn with hn | hn | ⟨_, x, hm, hn⟩
    · exact hx.1 hn
    · exact hx.2 hn
    · exact hce x hm hn
  refine ⟨hp4, ?_⟩
  intro hF hP
  cases hs : o.standard with
  | fits => exact absurd (h1.mp hs) hF
  | picture f => exact absurd ((h2 f).mp hs).2.1 hP
  | pds4 => exact absurd hs hp4
  | pds3 => rfl

/-- **C87 (limit).** A FITS file compressed as .bz2 or .zip is found when the FITS file is asked for, but, without a label, is not read as
FITS. -/
theorem C87_compressed_fits (w : World D) (given : Option Str) (p : D × Str) (label : Option (D × Str)) (skip : Bool) (o : Opened D)
    (h : openProduct w given p label skip = .ok o) (hl : o.label = none) (ho : Ordinary o.file.2)
    (hx : c!".bz2" <:+ lower o.file.2 ∨ c!".zip" <:+ lower o.file.2) : o.standard ≠ .fits := by
  obtain ⟨h1, _, _⟩ := C86_standard w given p label skip o h (by rw [hl]; exact ho)
  rw [hl] at h1
  simp only [Option.getD_none] at h1
  intro hs
  obtain ⟨y, hy, hyn⟩ := h1.mp hs
  have h1 : (lower o.file.2).getLast? = some '2' ∨ (lower o.file.2).getLast? = some 'p' := by
    rcases hx with h | h
    · exact .inl (suffix_ext_last h rfl)
    · exact .inr (suffix_ext_last h rfl)
  have h2 : (lower o.file.2).getLast? = some 's' ∨ (lower o.file.2).getLast? = some 't' ∨ (lower o.file.2).getLast? = some 'z' := by
    simp only [List.mem_cons, List.not_mem_nil, or_false] at hy
    rcases hy with rfl | rfl | rfl | rfl | rfl
    · exact .inl (suffix_ext_last hyn rfl)
    · exact .inr (.inl (suffix_ext_last hyn rfl))
    · exact .inr (.inr (suffix_ext_last hyn rfl))
    · exact .inr (.inr (suffix_ext_last hyn rfl))
    · exact .inr (.inr (suffix_ext_last hyn rfl))
  rcases h1 with h1 | h1 <;> rw [h1] at h2 <;> simp at h2

/-! ### the files of objects -/

theorem target_eq (fs : FS D) (paths : List D) (own : D × Str) (h : Hints) (cs : List (D × Str)) (hc : objectFiles paths own h = .ok cs) :
    (∀ p wn, checkCases fs cs = .ok (p, wn) → targetPath fs paths own h none = .ok (some p, some p)) ∧
    (checkCases fs cs = .error .fileNotFound → targetPath fs paths own h none = .ok (none, none)) := by
  constructor
  · intro p wn hp
    unfold targetPath
    simp only [hc, Except.bind, hp]
  · intro hp
    unfold targetPath
    simp only [hc, Except.bind, hp]

/-- **C86 (files of objects).** A pointer that is a file name, or a sequence that begins with one: the file is in the first search path that has it under any matching
name, and if none has, none is found. Any other pointer: the product's own file. A file once found is not looked for
again; nothing is remembered if none is found. -/
theorem C86_target (fs : FS D) (paths : List D) (own : D × Str) (h : Hints) (hs : h.special = none) (hc : h.comp = none) :
    (∀ p, targetPath fs paths own h (some p) = .ok (some p, some p)) ∧
    (∀ f rest, h.pointer = .text f ∨ h.pointer = .seq (.text f :: rest) →
      (∀ before d after, paths = before ++ d :: after → (∀ d' ∈ before, ¬ Available fs (d', f)) → Available fs (d, f) →
        ∃ n, n ∈ (fs.listing d).getD [] ∧ (fs.exists (d, f) = true → n = f) ∧ (fs.exists (d, f) = false → stem n = lower f) ∧
          targetPath fs paths own h none = .ok (some (d, n), some (d, n))) ∧
      ((∀ d ∈ paths, ¬ Available fs (d, f)) → targetPath fs paths own h none = .ok (none, none))) ∧
    (h.pointer = .other ∨ (∃ x rest, h.pointer = .seq (x :: rest) ∧ ∀ f, x ≠ .text f) → fs.exists own = true →
      targetPath fs paths own h none = .ok (some own, some own)) := by
  have hof : objectFiles paths own h = pointerFiles paths own h.pointer := by
    unfold objectFiles
    rw [hs, hc]
  refine ⟨fun p => rfl, ?_, ?_⟩
  · intro f rest hp
    have hcand : objectFiles paths own h = .ok (candidates paths [f]) := by
      rw [hof]
      rcases hp with hp | hp <;> rw [hp] <;> rfl
    obtain ⟨T1, T2⟩ := target_eq fs paths own h _ hcand
    constructor
    · intro before d after hpaths hb hd
      have hb' : ∀ d' ∈ before, ∀ n ∈ [] ++ f :: [], ¬ Available fs (d', n) := by
        intro d' hd' n hn
        simp only [List.nil_append, List.mem_singleton] at hn
        rw [hn]
        exact hb d' hd'
      obtain ⟨H1, H2⟩ := C19_search_order fs before after d [] [] f hb' (by simp)
      simp only [List.nil_append] at H1 H2
      rw [← hpaths] at H1 H2
      cases he : fs.exists (d, f) with
      | true =>
        refine ⟨f, by simpa [FS.exists] using he, fun _ => rfl, ?_, T1 _ _ (H1 he)⟩
        intro h
        cases h
      | false =>
        rcases hd with hd | hd
        · rw [he] at hd; cases hd
        · cases hm : matching fs (d, f) with
          | nil => exact absurd hm hd
          | cons m ms =>
            have hmm : m ∈ matching fs (d, f) := by rw [hm]; simp
            unfold matching at hmm
            obtain ⟨h1, h2⟩ := List.mem_filter.mp hmm
            refine ⟨m, h1, (fun h => by cases h), fun _ => by simpa using h2, T1 _ _ (H2 he m ms hm)⟩
    · intro hno
      refine T2 ((C19_not_found_iff fs _).mpr ?_)
      intro q hq
      unfold candidates at hq
      obtain ⟨d, hd, hq⟩ := List.mem_flatMap.mp hq
      simp only [List.map_cons, List.map_nil, List.mem_singleton] at hq
      rw [hq]
      exact hno d hd
  · intro hp he
    have hown : objectFiles paths own h = .ok [own] := by
      rw [hof]
      rcases hp with hp | ⟨x, rest, hp, hx⟩
      · rw [hp]; rfl
      · rw [hp]
        cases x with
        | text f => exact absurd rfl (hx f)
        | seq l => rfl
        | other => rfl
    exact (target_eq fs paths own h _ hown).1 own false (by simp [checkCases, he])

theorem comp_cases {fs : FS D} {cs : List (D × Str)} {q : D × Str} (hq : q ∈ cs) (ha : Available fs q)
    (hu : ∀ c ∈ cs, Available fs c → c = q) : checkCases fs cs = checkCases fs [q] := by
  induction cs with
  | nil => simp at hq
  | cons c cs ih =>
    by_cases hc : Available fs c
    · have := hu c (List.mem_cons_self ..) hc
      subst this
      rcases hc with hc | hc
      · simp [checkCases, hc]
      · cases hm : matching fs c with
        | nil => exact absurd hm hc
        | cons m ms => simp [checkCases, hm]
    · have h2 : checkCases fs (c :: cs) = checkCases fs cs := checkCases_unavailable fs [c] cs (by simpa using hc)
      rw [h2]
      rcases List.mem_cons.mp hq with rfl | hq
      · exact absurd ha hc
      · exact ih hq (fun c hc => hu c (List.mem_cons_of_mem _ hc))

/-- **C86 (compressed files).** An object in a file that the label describes both compressed and uncompressed: if there is anything
for just one of the names in the search paths, it is found, in whichever order they are tried. -/
theorem C86_compressed (fs : FS D) (paths : List D) (own : D × Str) (h : Hints) (hs : h.special = none) (blocks : List (List Str))
    (hc : h.comp = some blocks) (q : D × Str) (ha : Available fs q)
    (hu : ∀ names ∈ blocks, ∀ d ∈ paths, ∀ f ∈ names, Available fs (d, f) → (d, f) = q)
    (hq : ∃ names ∈ blocks, q.1 ∈ paths ∧ q.2 ∈ names) :
    ∃ n, n ∈ (fs.listing q.1).getD [] ∧ (fs.exists q = true → n = q.2) ∧
      targetPath fs paths own h none = .ok (some (q.1, n), some (q.1, n)) := by
  have hof : objectFiles paths own h = .ok (blocks.flatMap (fun names => candidates paths names)) := by
    unfold objectFiles
    rw [hs, hc]
  have hmem : ∀ c, c ∈ blocks.flatMap (fun names => candidates paths names) ↔ ∃ names ∈ blocks, c.1 ∈ paths ∧ c.2 ∈ names := by
    rintro ⟨d, f⟩
    rw [List.mem_flatMap]
    refine exists_congr fun names => and_congr_right fun _ => ?_
    unfold candidates
    simp only [List.mem_flatMap, List.mem_map, Prod.mk.injEq]
    constructor
    · rintro ⟨d', hd', f', hf', rfl, rfl⟩; exact ⟨hd', hf'⟩
    · rintro ⟨hd', hf'⟩; exact ⟨d, hd', f, hf', rfl, rfl⟩
  have hcc := comp_cases ((hmem q).mpr hq) ha (by
    rintro ⟨d, f⟩ hm hav
    obtain ⟨names, hn, hd, hf⟩ := (hmem _).mp hm
    exact hu names hn d hd f hf hav)
  obtain ⟨T1, _⟩ := target_eq fs paths own h _ hof
  rw [hcc] at T1
  cases he : fs.exists q with
  | true =>
    refine ⟨q.2, by simpa [FS.exists] using he, fun _ => rfl, T1 q false (by simp [checkCases, he])⟩
  | false =>
    rcases ha with ha | ha
    · rw [he] at ha; cases ha
    · cases hm : matching fs q with
      | nil => exact absurd hm ha
      | cons m ms =>
        have hmm : m ∈ matching fs q := by rw [hm]; simp
        unfold matching at hmm
        refine ⟨m, (List.mem_filter.mp hmm).1, (fun h => by cases h), T1 (q.1, m) (decide (ms ≠ [])) (by simp [checkCases, he, hm])⟩

/-- **C87 (limit).** If both files are there, which one is read depends on the order in which a set of two words is gone through, which Python does not fix
from run to run. -/
theorem C87_compressed_order (fs : FS D) (paths : List D) (d : D) (own : D × Str) (a b : Str) (hab : a ≠ b)
    (ha : fs.exists (d, a) = true) (hb : fs.exists (d, b) = true) :
    targetPath fs (d :: paths) own { comp := some [[a], [b]] } none ≠ targetPath fs (d :: paths) own { comp := some [[b], [a]] } none := by
  have key : ∀ x y, fs.exists (d, x) = true → targetPath fs (d :: paths) own { comp := some [[x], [y]] } none = .ok (some (d, x), some (d, x)) := by
    intro x y hx
    refine (target_eq fs (d :: paths) own { comp := some [[x], [y]] } _ rfl).1 (d, x) false ?_
    simp [candidates, checkCases, hx]
  rw [key a b ha, key b a hb]
  intro h
  simp only [Except.ok.injEq, Prod.mk.injEq, Option.some.injEq, true_and, and_self] at h
  exact hab h

/-- **C87 (limit).** A pointer that is an empty sequence is an IndexError, not a missing file. -/
theorem C87_empty_pointer (fs : FS D) (paths : List D) (own : D × Str) :
    targetPath fs paths own { pointer := .seq [] } none = .error .indexError := rfl

end Verif.Open
