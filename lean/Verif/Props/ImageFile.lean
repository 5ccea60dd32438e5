/-
C68: images, qubes and binary arrays are read as stored.
-/
import Verif.Spec.ImageFile
import Verif.Props.Image
import Verif.Props.Datatypes
import Verif.Lemmas.TableCells

namespace Verif.ImageFile
open Verif.Py Verif.Bits Verif.Datatypes Verif.Datatypes.Spec Verif.Image Verif.Image.Spec Verif.Table Verif.Table.Spec
  Verif.ImageFile.Spec

/-- the element that shows a value -/
def elemOf : Value → Elem
  | .int n => .int n
  | .real x => .real (some x)
  | .notFinite => .real none
  | .bytes b => .bytes b
  | .bool _ => .bytes []
  | .text _ => .bytes []

theorem elems_eq (d : Dtype) (cells : List Bytes) : elems d cells = cells.map (fun bs => elemOf (oneVal d bs)) := by
  obtain ⟨o, k, n⟩ := d
  unfold elems
  cases k with
  | int => simp only [decodeAll, List.map_map]; rfl
  | uint => simp only [decodeAll, List.map_map]; rfl
  | bytes => simp only [decodeAll, List.map_map]; rfl
  | void => simp only [decodeAll]; rfl
  | float =>
    by_cases h : n = 4
    · simp only [decodeAll, h, if_true, List.map_map]
      refine List.map_congr_left ?_
      intro bs _
      simp only [Function.comp_apply, oneVal, if_true]
      cases ieee 23 8 (wordValue (o.getD Order.little) bs) <;> rfl
    · simp only [decodeAll, h, if_false, List.map_map]
      refine List.map_congr_left ?_
      intro bs _
      simp only [Function.comp_apply, oneVal, h, if_false]
      cases ieee 52 11 (wordValue (o.getD Order.little) bs) <;> rfl

theorem is_elemOf {d : Dtype} {bs : Bytes} {v : Value} (h : Stored d bs v) : Is (elemOf (oneVal d bs)) v := by
  rw [stored_val h]
  cases h <;> constructor

/-- the elements that `load` gets from the file -/
def fileElems (file : Bytes) (start : Nat) (d : Dtype) (n : Nat) : List Elem :=
  (List.range n).map (fun r => elemOf (oneVal d (bytesAt file (start + r * d.size) d.size)))

theorem fileElems_length (file : Bytes) (start : Nat) (d : Dtype) (n : Nat) : (fileElems file start d n).length = n := by
  simp [fileElems]

theorem fileElems_at {file : Bytes} {start : Nat} {d : Dtype} {n i : Nat} {v : Value} {e : Elem}
    (he : (fileElems file start d n)[i]? = some e) (h : At file start d i v) : Is e v := by
  unfold fileElems at he
  rw [List.getElem?_map] at he
  cases hr : (List.range n)[i]? with
  | none => rw [hr] at he; cases he
  | some r =>
    rw [hr] at he
    have : i = r := by
      rw [List.getElem?_range (by
        by_contra hc
        rw [List.getElem?_eq_none (by simp; omega)] at hr
        cases hr)] at hr
      exact Option.some.inj hr
    subst this
    cases he
    exact is_elemOf h

/-- `load` is `readImage` on the elements of the file -/
theorem load_eq (src : Input) (start : Nat) (code : Str) (p : Props) (d : Dtype) (hd : npDtype code = some d) (h0 : 0 < d.size)
    (hen : start + pixels p * d.size ≤ src.file.length) :
    load src start code false p = readImage id (fileElems src.file start d (pixels p)) p := by
  unfold load
  cases hv : checkFixValidity p with
  | error e => simp only [readImage, hv]
  | ok u =>
    simp only [hd, readRecords_eq _ _ _ _ _ h0 hen, elems_eq, List.map_map]
    rfl


theorem linefixOne_exact (n k : Nat) (hn : 0 < n) (o : Option Nat) (h : o.getD 0 = k * n) :
    ∃ q, linefixOne n o = .ok q ∧ q.getD 0 = k := by
  match o with
  | none =>
    refine ⟨none, rfl, ?_⟩
    simp only [Option.getD_none] at h ⊢
    rcases Nat.mul_eq_zero.1 h.symm with h | h <;> omega
  | some 0 =>
    refine ⟨none, rfl, ?_⟩
    simp only [Option.getD_some, Option.getD_none] at h ⊢
    rcases Nat.mul_eq_zero.1 h.symm with h | h <;> omega
  | some (m + 1) =>
    simp only [Option.getD_some] at h
    refine ⟨some k, ?_, rfl⟩
    simp only [linefixOne, wholePixels]
    rw [if_neg (by omega), h, if_neg (by simp), Nat.mul_div_cancel _ hn]

theorem imageProps_ok (b : ImageBlock) (n pre suf : Nat) (hn : 0 < n) (hbits : b.sampleBits = 8 * n)
    (hpre : b.linePrefixBytes.getD 0 = pre * n) (hsuf : b.lineSuffixBytes.getD 0 = suf * n)
    (hbst : 1 < b.bands.getD 1 → b.bst ≠ none) :
    ∃ p, imageProps b = .ok p ∧ p.linePrefixPix.getD 0 = pre ∧ p.lineSuffixPix.getD 0 = suf := by
  obtain ⟨q1, h1, h2⟩ := linefixOne_exact n pre hn _ hpre
  obtain ⟨q2, h3, h4⟩ := linefixOne_exact n suf hn _ hsuf
  have hb : b.sampleBits / 8 = n := by omega
  unfold imageProps linefixMeta
  simp only [hb, h1, h3]
  cases hbd : b.bands with
  | none => exact ⟨_, rfl, h2, h4⟩
  | some m =>
    simp only
    rw [if_neg (by rintro ⟨h5, h6⟩; exact hbst (by rw [hbd]; exact h6) h5)]
    exact ⟨_, rfl, h2, h4⟩

theorem underscored_vax (t : Str) (h : underscored t ≠ c!"VAX_REAL") : decide (t = c!"VAX_REAL") = false := by
  rw [decide_eq_false_iff_not]
  rintro rfl
  exact h rfl

theorem means_nonempty {t : Str} {n : Nat} {d : Dtype} (h : Means (underscored t) n d) : t ≠ [] := by
  rintro rfl
  obtain ⟨s, hs, _⟩ := C10_types_mean_what_they_say [] n d h
  revert hs
  unfold sampleTypes
  simp (decide := true) only [underscored, List.map_nil, contains, typeTable, List.lookup]
  by_cases h8 : n = 8
  · simp [h8]
  · by_cases h4 : n = 4 <;> simp [h8, h4]

theorem imageFile_eq (src : Input) (b : ImageBlock) (t : Str) (start n pre suf : Nat) (d : Dtype)
    (ht : Means (underscored t) n d) (hn : 0 < n) (hbits : b.sampleBits = 8 * n)
    (hpre : b.linePrefixBytes.getD 0 = pre * n) (hsuf : b.lineSuffixBytes.getD 0 = suf * n)
    (hbst : 1 < b.bands.getD 1 → b.bst ≠ none) :
    d.size = n ∧ ∃ p code, imageProps b = .ok p ∧ p.linePrefixPix.getD 0 = pre ∧ p.lineSuffixPix.getD 0 = suf ∧
      npDtype code = some d ∧ imageFile src b t start = load src start code (decide (t = c!"VAX_REAL")) p := by
  obtain ⟨code, h1, h2, h3⟩ := C10_types_mean_what_they_say t n d ht
  obtain ⟨p, h4, h5, h6⟩ := imageProps_ok b n pre suf hn hbits hpre hsuf hbst
  refine ⟨h3, p, code, h4, h5, h6, h2, ?_⟩
  have hb : b.sampleBits / 8 = n := by omega
  unfold imageFile
  rw [if_neg (means_nonempty ht), hb, h1]
  simp only [h4]

/-- Images of one band: the elements are those of the dtype. -/
theorem single (src : Input) (b : ImageBlock) (t : Str) (start n pre suf : Nat) (d : Dtype)
    (ht : Means (underscored t) n d) (hv : t ≠ c!"VAX_REAL") (hn : 0 < n) (hbits : b.sampleBits = 8 * n)
    (hpre : b.linePrefixBytes.getD 0 = pre * n) (hsuf : b.lineSuffixBytes.getD 0 = suf * n) (hb : b.bands.getD 1 = 1)
    (hen : start + b.lines * (pre + b.lineSamples + suf) * n ≤ src.file.length) :
    ∃ out, imageFile src b t start = .ok out ∧ out.image.shape = [b.lines, b.lineSamples] ∧
      (∀ l s v, l < b.lines → s < b.lineSamples → At src.file start d (l * (pre + b.lineSamples + suf) + pre + s) v →
        Has out.image [l, s] v) ∧
      (0 < pre → ∃ A, out.prefix? = some A ∧ A.shape = [b.lines, pre] ∧ ∀ l s v, l < b.lines → s < pre →
        At src.file start d (l * (pre + b.lineSamples + suf) + s) v → Has A [l, s] v) ∧
      (0 < suf → ∃ A, out.suffix? = some A ∧ A.shape = [b.lines, suf] ∧ ∀ l s v, l < b.lines → s < suf →
        At src.file start d (l * (pre + b.lineSamples + suf) + pre + b.lineSamples + s) v → Has A [l, s] v) := by
  obtain ⟨hd, p, code, h1, h2, h3, h4, h5⟩ := imageFile_eq src b t start n pre suf d ht hn hbits hpre hsuf (by omega)
  obtain ⟨r1, r2, r3, r4, r5, -, -, r8, -⟩ := C11_image_label b p h1
  rw [hb] at r3
  rw [h2, h3] at r8
  have hpix : pixels p = b.lines * (pre + b.lineSamples + suf) := by
    have := r5
    obtain ⟨-, -, -, -, -, -, q1, q2, q3⟩ := this
    unfold pixels
    rw [r1, r2, r3, r8, q1, q2, q3]
    ring
  rw [h5, decide_eq_false hv, load_eq src start code p d h4 (by omega) (by rw [hd, hpix]; exact hen)]
  obtain ⟨out, o1, o2, o3, o4, o5⟩ := C11_line_prefix_suffix id (fileElems src.file start d (pixels p)) p pre suf r3 r5 h2 h3 r8
    (by rw [fileElems_length, hpix, r1, r2])
  rw [r1, r2] at o2 o3 o5
  rw [r1] at o4
  refine ⟨out, o1, o2, ?_, ?_, ?_⟩
  · intro l s v hl hs hat
    obtain ⟨x, hx, hg⟩ := o3 l s hl hs
    exact ⟨x, hg, fileElems_at hx hat⟩
  · intro h
    obtain ⟨A, a1, a2, a3⟩ := o4 h
    refine ⟨A, a1, a2, ?_⟩
    intro l s v hl hs hat
    obtain ⟨x, hx, hg⟩ := a3 l s hl hs
    rw [r2] at hx
    exact ⟨x, hg, fileElems_at hx hat⟩
  · intro h
    obtain ⟨A, a1, a2, a3⟩ := o5 h
    refine ⟨A, a1, a2, ?_⟩
    intro l s v hl hs hat
    obtain ⟨x, hx, hg⟩ := a3 l s hl hs
    exact ⟨x, hg, fileElems_at hx hat⟩

/-- **C68 (images of one band).** For an IMAGE of one band with any number of lines and samples, any sample type that
stands for numbers, characters or bytes of some size, and any whole number of elements before and after each line: pixel
`[line][sample]` is the value stored at its place, and so are the elements of the prefix and suffix arrays. -/
theorem C68_image_single (src : Input) (b : ImageBlock) (t : Str) (start n pre suf : Nat) (d : Dtype)
    (ht : Means (underscored t) n d) (hdir : Direct t) (hn : 0 < n) (hbits : b.sampleBits = 8 * n)
    (hpre : b.linePrefixBytes.getD 0 = pre * n) (hsuf : b.lineSuffixBytes.getD 0 = suf * n) (hb : b.bands.getD 1 = 1)
    (hen : start + b.lines * (pre + b.lineSamples + suf) * n ≤ src.file.length) :
    ∃ out, imageFile src b t start = .ok out ∧ out.image.shape = [b.lines, b.lineSamples] ∧
      (∀ l s v, l < b.lines → s < b.lineSamples → At src.file start d (l * (pre + b.lineSamples + suf) + pre + s) v →
        Has out.image [l, s] v) ∧
      (0 < pre → ∃ A, out.prefix? = some A ∧ A.shape = [b.lines, pre] ∧ ∀ l s v, l < b.lines → s < pre →
        At src.file start d (l * (pre + b.lineSamples + suf) + s) v → Has A [l, s] v) ∧
      (0 < suf → ∃ A, out.suffix? = some A ∧ A.shape = [b.lines, suf] ∧ ∀ l s v, l < b.lines → s < suf →
        At src.file start d (l * (pre + b.lineSamples + suf) + pre + b.lineSamples + s) v → Has A [l, s] v) :=
  single src b t start n pre suf d ht (of_decide_eq_false (underscored_vax t hdir.1)) hn hbits hpre hsuf hb hen

/-- **C68 (names).** An object whose name contains PREFIX is the array of line prefixes, one whose name contains SUFFIX the
array of line suffixes, any other the image. -/
theorem C68_image_objects (src : Input) (name : Str) (b : ImageBlock) (t : Str) (start n pre suf : Nat) (d : Dtype)
    (ht : Means (underscored t) n d) (hdir : Direct t) (hn : 0 < n) (hbits : b.sampleBits = 8 * n)
    (hpre : b.linePrefixBytes.getD 0 = pre * n) (hsuf : b.lineSuffixBytes.getD 0 = suf * n) (hb : b.bands.getD 1 = 1)
    (hen : start + b.lines * (pre + b.lineSamples + suf) * n ≤ src.file.length) (first width : Nat)
    (hwhich : c!"PREFIX" <:+: name ∧ 0 < pre ∧ first = 0 ∧ width = pre ∨
      ¬ c!"PREFIX" <:+: name ∧ c!"SUFFIX" <:+: name ∧ 0 < suf ∧ first = pre + b.lineSamples ∧ width = suf ∨
      ¬ c!"PREFIX" <:+: name ∧ ¬ c!"SUFFIX" <:+: name ∧ first = pre ∧ width = b.lineSamples) :
    ∃ A, imageObject src name b t start = .ok (some A) ∧ A.shape = [b.lines, width] ∧
      ∀ l s v, l < b.lines → s < width → At src.file start d (l * (pre + b.lineSamples + suf) + first + s) v →
        Has A [l, s] v := by
  obtain ⟨out, h1, h2, h3, h4, h5⟩ := C68_image_single src b t start n pre suf d ht hdir hn hbits hpre hsuf hb hen
  unfold imageObject
  rw [h1]
  simp only [pick]
  rcases hwhich with ⟨w1, w2, rfl, rfl⟩ | ⟨w1, w2, w3, rfl, rfl⟩ | ⟨w1, w2, rfl, rfl⟩
  · obtain ⟨A, a1, a2, a3⟩ := h4 w2
    rw [if_pos ((contains_iff _ _).2 w1), a1]
    exact ⟨A, rfl, a2, a3⟩
  · obtain ⟨A, a1, a2, a3⟩ := h5 w3
    rw [if_neg (fun h => w1 ((contains_iff _ _).1 h)), if_pos ((contains_iff _ _).2 w2), a1]
    refine ⟨A, rfl, a2, ?_⟩
    intro l s v hl hs hat
    refine a3 l s v hl hs ?_
    rw [← Nat.add_assoc] at hat
    exact hat
  · rw [if_neg (fun h => w1 ((contains_iff _ _).1 h)), if_neg (fun h => w2 ((contains_iff _ _).1 h))]
    exact ⟨_, rfl, h2, h3⟩

theorem planesOk_of_none {p : Props} (h : NoPlanes p) (hl : p.linepad = 0) : PlanesOk p := by
  obtain ⟨h1, h2, h3, h4, h5, h6, h7, h8, h9⟩ := h
  exact ⟨hl, by rw [h7, h1, h4]; rfl, by rw [h8, h2, h5]; rfl, by rw [h9, h3, h6]; rfl, Or.inl ⟨h7, h8⟩,
    by rw [h4, h5, h6]; simp⟩

/-- **C68 (images of several bands).** Pixel `[band][line][sample]` is the value stored where the storage type puts it. -/
theorem C68_image_bands (src : Input) (b : ImageBlock) (t : Str) (start n B : Nat) (d : Dtype) (st : Storage)
    (ht : Means (underscored t) n d) (hdir : Direct t) (hn : 0 < n) (hbits : b.sampleBits = 8 * n)
    (hpre : b.linePrefixBytes.getD 0 = 0) (hsuf : b.lineSuffixBytes.getD 0 = 0) (hb : b.bands = some B) (hB : 1 < B)
    (hbst : b.bst ≠ none) (hst : StorageOf b.bst st)
    (hen : start + B * b.lines * b.lineSamples * n ≤ src.file.length) :
    ∃ out, imageFile src b t start = .ok out ∧ out.image.shape = [B, b.lines, b.lineSamples] ∧
      ∀ k l s v, k < B → l < b.lines → s < b.lineSamples →
        At src.file start d (position st B b.lines b.lineSamples k l s) v → Has out.image [k, l, s] v := by
  obtain ⟨hd, p, code, h1, h2, h3, h4, h5⟩ := imageFile_eq src b t start n 0 0 d ht hn hbits (by omega) (by omega)
    (fun _ => hbst)
  obtain ⟨r1, r2, r3, r4, r5, -, -, r8, -⟩ := C11_image_label b p h1
  rw [h2, h3] at r8
  rw [hb, Option.getD_some] at r3
  rw [if_neg (by rw [hb]; simp)] at r4
  have hpl := planesOk_of_none r5 r8
  obtain ⟨z1, z2, z3, z4, z5, z6, q1, q2, q3⟩ := r5
  have hpix : pixels p = B * b.lines * b.lineSamples := by
    unfold pixels
    rw [r1, r2, r3, r8, q1, q2, q3]
    ring
  rw [h5, underscored_vax t hdir.1, load_eq src start code p d h4 (by omega) (by rw [hd, hpix]; exact hen)]
  obtain ⟨out, o1, o2, o3⟩ := C11_multiband_pixels id (fileElems src.file start d (pixels p)) p st (by rw [r4]; exact hst)
    (by omega) hpl (by rw [fileElems_length])
  rw [r1, r2, r3] at o2 o3
  refine ⟨out, o1, o2, ?_⟩
  intro k l s v hk hl hs hat
  obtain ⟨x, hx, hg⟩ := o3 k l s hk hl hs
  rw [q1, q2, q3, z1, z2, z3] at hx
  exact ⟨x, hg, fileElems_at hx hat⟩

theorem qube_code (t : Str) (n : Nat) (d : Dtype) (ht : Means (underscored t) n d) (hdir : Direct t)
    (hk : d.kind = .float ∨ (d.kind = .int ∨ d.kind = .uint) ∧ n ≤ 2) :
    ∃ code, sampleTypes t n false = .ok code ∧ npDtype code = some d ∧ d.size = n := by
  obtain ⟨code, h1, h2, h3⟩ := C10_types_mean_what_they_say t n d ht
  refine ⟨code, ?_, h2, h3⟩
  rw [← h1]
  obtain ⟨hv, hi⟩ := hdir
  unfold sampleTypes
  generalize underscored t = t at *
  cases ht with
  | integer hn hw ho hk' hu =>
    have h2 : n ≤ 2 := by
      rcases hk with hk | hk
      · rcases hk' with rfl | rfl <;> cases hk
      · exact hk.2
    simp only
    rw [if_pos ((integer_guard t).2 hn), if_pos ((integer_guard t).2 hn)]
    unfold integerCode
    have h4 : ¬ (n = 4 ∨ n = 8) := by omega
    simp [h4]
  | bigReal ht hn =>
    simp only [List.mem_cons, List.not_mem_nil, or_false] at ht hn
    rcases ht with rfl | rfl | rfl | rfl | rfl <;> rcases hn with rfl | rfl <;> rfl
  | littleReal hn =>
    simp only [List.mem_cons, List.not_mem_nil, or_false] at hn
    rcases hn with rfl | rfl <;> rfl
  | text ht => simp at hk
  | raw ht => simp at hk
  | vax => exact absurd rfl hv
  | ibm hn => exact absurd rfl hi

theorem readImage_take {α : Type} (conv : α → α) (avail : List α) (p : Props) :
    readImage conv (avail.take (pixels p)) p = readImage conv avail p := by
  have h : (avail.take (pixels p)).take (pixels p) = avail.take (pixels p) := by rw [List.take_take, Nat.min_self]
  unfold readImage singleBand multiBand
  rw [h]

theorem fileElems_take (file : Bytes) (start : Nat) (d : Dtype) (m n : Nat) (h : m ≤ n) :
    (fileElems file start d n).take m = fileElems file start d m := by
  unfold fileElems
  rw [← List.map_take, List.take_range, Nat.min_eq_left h]

/-- **C68 (qubes).** For a QUBE with any axis order that pdr knows, any core, side planes before and after the core on one
axis, and items that are reals or integers of one or two bytes: element `[band][line][sample]` is the value stored where
the axis order puts it. -/
theorem C68_qube (src : Input) (b : QubeBlock) (t : Str) (start : Nat) (d : Dtype) (names : List Axis)
    (core before after : Axis → Nat)
    (ht : Means (underscored t) b.itemBytes d) (hdir : Direct t)
    (hk : d.kind = .float ∨ (d.kind = .int ∨ d.kind = .uint) ∧ b.itemBytes ≤ 2)
    (hnm : b.axisName = some names) (hbst : b.bst = none)
    (hknown : names = [.sample, .line, .band] ∨ names = [.band, .sample, .line] ∨ names = [.sample, .band, .line])
    (hcore : b.coreItems = names.map core) (hib : 0 < b.itemBytes)
    (hlf : b.linePrefixBytes = none ∧ b.lineSuffixBytes = none)
    (hbef : ∀ ax, Planes b names ax false (before ax)) (haft : ∀ ax, Planes b names ax true (after ax))
    (hnz : ∀ ax, b.itemBytesOf ax true ≠ none → 0 < after ax)
    (hone : ∃ ax, ∀ ax', ax' ≠ ax → before ax' + after ax' = 0) (hbands : core .band ≠ 1)
    (hen : start + prod (names.map (fun ax => core ax + before ax + after ax)) * b.itemBytes ≤ src.file.length) :
    ∃ out, qubeFile src b t start = .ok out ∧ out.image.shape = [core .band, core .line, core .sample] ∧
      ∀ (ix : Axis → Nat) v, (∀ ax, ix ax < core ax) →
        At src.file start d (fastestFirst (names.map (fun ax => core ax + before ax + after ax))
          (names.map (fun ax => ix ax + before ax))) v → Has out.image [ix .band, ix .line, ix .sample] v := by
  obtain ⟨code, h1, h2, h3⟩ := qube_code t _ d ht hdir hk
  generalize hN : prod (names.map (fun ax => core ax + before ax + after ax)) = N at *
  obtain ⟨p, out, q1, q2, q3, q4⟩ := C11_qube_pixels id (fileElems src.file start d N) b names core before after hnm hbst
    hknown hcore hib hlf hbef haft hnz hone hbands (by rw [fileElems_length, hN])
  have hnb : p.nbands = core .band ∧ p.linepad = 0 := by
    have hcount : axisCount .band names b.coreItems = some (core .band) := by
      rw [hcore]
      rcases hknown with rfl | rfl | rfl <;> rfl
    have := q1
    unfold qubeProps linefixMeta at this
    rw [hnm, hlf.1, hlf.2] at this
    simp only [linefixOne] at this
    split at this
    · cases this
    · split at this
      · rename_i r c n e1 e2 e3
        rw [hcount] at e3
        cases e3
        split at this
        · cases this
        · rename_i p' hp'
          cases this
          refine ⟨?_, rfl⟩
          unfold axplaneMeta at hp'
          repeat' (split at hp'; · cases hp')
          cases hp'
          rfl
      · cases this
  have hpix : pixels p ≤ N := by
    by_contra hc
    obtain ⟨e, he⟩ := C11_short_file id (fileElems src.file start d N) p (Or.inl (by rw [hnb.1]; exact hbands)) hnb.2
      (by rw [fileElems_length]; omega)
    rw [he] at q2
    cases q2
  have hsz : pixels p * b.itemBytes ≤ N * b.itemBytes := Nat.mul_le_mul_right _ hpix
  refine ⟨out, ?_, q3, ?_⟩
  · unfold qubeFile
    rw [h1]
    simp only [q1, underscored_vax t hdir.1]
    rw [load_eq src start code p d h2 (by omega) (by rw [h3]; omega), ← fileElems_take _ _ _ _ _ hpix, readImage_take]
    exact q2
  · intro ix v hix hat
    obtain ⟨x, hx, hg⟩ := q4 ix hix
    exact ⟨x, hg, fileElems_at hx hat⟩

theorem prod_append (a b : List Nat) : prod (a ++ b) = prod a * prod b := by
  induction a with
  | nil => simp [prod]
  | cons n a ih => rw [List.cons_append, prod, prod, ih, Nat.mul_assoc]

theorem prod_reverse (a : List Nat) : prod a.reverse = prod a := by
  induction a with
  | nil => rfl
  | cons n a ih => rw [List.reverse_cons, prod_append, ih]; simp [prod]; ring

theorem fastestFirst_append (a b : List Nat) (i j : List Nat) (h : a.length = i.length) :
    fastestFirst (a ++ b) (i ++ j) = fastestFirst a i + prod a * fastestFirst b j := by
  induction a generalizing i with
  | nil =>
    cases i with
    | nil => simp [fastestFirst, prod]
    | cons => cases h
  | cons n a ih =>
    cases i with
    | nil => cases h
    | cons x i =>
      rw [List.cons_append, List.cons_append, fastestFirst, fastestFirst, ih i (by simpa using h), prod]
      ring

theorem ravel_last (sh ix : List Nat) (h : sh.length = ix.length) : ravel sh ix = lastFastest sh ix := by
  unfold lastFastest
  induction sh generalizing ix with
  | nil =>
    cases ix with
    | nil => rfl
    | cons => cases h
  | cons n sh ih =>
    cases ix with
    | nil => cases h
    | cons x ix =>
      have hl : sh.length = ix.length := by simpa using h
      rw [List.reverse_cons, List.reverse_cons, fastestFirst_append _ _ _ _ (by simpa using hl), prod_reverse, ravel,
        ih ix hl]
      simp [fastestFirst]
      ring

theorem ravel_lt (sh ix : List Nat) (h : Within sh ix) : ravel sh ix < prod sh := by
  unfold Within at h
  induction h with
  | nil => simp [ravel, prod]
  | @cons n i sh ix h1 h2 ih =>
    rw [ravel, prod]
    have : (i + 1) * prod sh ≤ n * prod sh := Nat.mul_le_mul_right _ h1
    rw [Nat.add_mul] at this
    omega

/-- **C68 (binary arrays).** For a BINARY ARRAY without subobjects in an uncompressed file: element `[i][j]...` is the value
stored at its place, the last index varying fastest. -/
theorem C68_array (src : Input) (shape : List Nat) (t : Str) (n start : Nat) (d : Dtype)
    (ht : Means (underscored t) n d) (hn : 0 < n) (hc : src.compressed = false)
    (hen : start + prod shape * n ≤ src.file.length) :
    ∃ A, arrayFile src shape t n start = .ok A ∧ A.shape = shape ∧
      ∀ ix v, Within shape ix → At src.file start d (lastFastest shape ix) v → Has A ix v := by
  obtain ⟨code, h1, h2, h3⟩ := C10_types_mean_what_they_say t n d ht
  have he : elems d ((List.range (prod shape)).map (fun r => bytesAt src.file (start + r * d.size) d.size)) =
      fileElems src.file start d (prod shape) := by
    rw [elems_eq, List.map_map]; rfl
  have hr := reshape_ofList (fileElems src.file start d (prod shape)) id shape (fileElems_length ..)
  have hid : (Arr.ofList (fileElems src.file start d (prod shape))).map id = Arr.ofList (fileElems src.file start d (prod shape)) := by
    unfold Arr.map
    simp
  rw [hid] at hr
  refine ⟨⟨shape, fun idx => ((fileElems src.file start d (prod shape))[ravel shape idx]?).map id⟩, ?_, rfl, ?_⟩
  · unfold arrayFile
    rw [h1]
    simp only [hc, h2, readRecords_eq _ _ _ _ _ (show 0 < d.size by omega) (by rw [h3]; exact hen), he,
      Bool.false_eq_true, if_false]
    exact hr
  · intro ix v hix hat
    have hlen := hix.length_eq
    have hlt := ravel_lt shape ix hix
    have hx : ∃ x, (fileElems src.file start d (prod shape))[ravel shape ix]? = some x :=
      ⟨_, List.getElem?_eq_getElem (by rw [fileElems_length]; exact hlt)⟩
    obtain ⟨x, hx⟩ := hx
    refine ⟨x, ?_, ?_⟩
    · simp only [hx, Option.map_some, id]
    · rw [← ravel_last shape ix hlen] at hat
      exact fileElems_at hx hat

/-- **C69 (limit).** IBM reals in images are not converted: the pixels are the words of the file as unsigned numbers. -/
theorem C69_ibm_words (src : Input) (b : ImageBlock) (t : Str) (start n : Nat) (ht : underscored t = c!"IBM_REAL")
    (hn : n = 4 ∨ n = 8) (hbits : b.sampleBits = 8 * n) (hpre : b.linePrefixBytes = none) (hsuf : b.lineSuffixBytes = none)
    (hb : b.bands = none) (hen : start + b.lines * b.lineSamples * n ≤ src.file.length) :
    ∃ out, imageFile src b t start = .ok out ∧ out.image.shape = [b.lines, b.lineSamples] ∧
      ∀ l s, l < b.lines → s < b.lineSamples → Has out.image [l, s]
        (.int (number .big (bytesAt src.file (start + (l * b.lineSamples + s) * n) n))) := by
  have hm : Means (underscored t) n ⟨some .big, .uint, n⟩ := by rw [ht]; exact .ibm (by simpa using hn)
  obtain ⟨out, o1, o2, o3, -⟩ := single src b t start n 0 0 _ hm (of_decide_eq_false (underscored_vax t (by rw [ht]; decide))) (by omega) hbits (by rw [hpre]; simp)
    (by rw [hsuf]; simp) (by rw [hb]; rfl) (by simpa using hen)
  refine ⟨out, o1, o2, ?_⟩
  intro l s hl hs
  apply o3 l s _ hl hs
  simp only [At, Nat.zero_add, Nat.add_zero]
  refine .unsigned ?_ rfl
  unfold bytesAt
  rw [List.length_take, List.length_drop]
  have h1 : (l + 1) * b.lineSamples ≤ b.lines * b.lineSamples := Nat.mul_le_mul_right _ hl
  have h2 : (l * b.lineSamples + s + 1) * n ≤ b.lines * b.lineSamples * n := Nat.mul_le_mul_right _ (by
    rw [Nat.add_mul] at h1; omega)
  rw [Nat.add_mul _ 1 n] at h2
  omega

/-- **C69 (limit).** A BINARY ARRAY without subobjects cannot be read from a compressed file. -/
theorem C69_compressed_array (src : Input) (shape : List Nat) (t : Str) (n start : Nat) (d : Dtype)
    (ht : Means (underscored t) n d) (hc : src.compressed = true) :
    arrayFile src shape t n start = .error .attributeError := by
  obtain ⟨code, h1, -⟩ := C10_types_mean_what_they_say t n d ht
  unfold arrayFile
  rw [h1]
  simp only [hc, if_true]

theorem readRecords_length (c : Bool) (file : Bytes) (start L n : Nat) (cells : List Bytes)
    (h : readRecords c file start L n = .ok cells) : cells.length ≤ (file.length - start) / L := by
  unfold readRecords at h
  split at h
  · cases h
  · split at h
    · simp only at h
      split at h
      · cases h
      · cases h
        rw [records_length, List.length_take, List.length_drop]
        exact Nat.div_le_div_right (Nat.min_le_right _ _)
    · cases h
      rw [records_length, List.length_drop]
      exact Nat.min_le_right _ _

/-- **C68 (short files).** An image without line prefixes and suffixes that goes beyond the end of its file is an error. -/
theorem C68_short (src : Input) (b : ImageBlock) (t : Str) (start n : Nat) (d : Dtype)
    (ht : Means (underscored t) n d) (hn : 0 < n) (hbits : b.sampleBits = 8 * n)
    (hpre : b.linePrefixBytes.getD 0 = 0) (hsuf : b.lineSuffixBytes.getD 0 = 0)
    (hsh : src.file.length - start < b.bands.getD 1 * b.lines * b.lineSamples * n) :
    ∃ e, imageFile src b t start = .error e := by
  obtain ⟨code, h1, h2, h3⟩ := C10_types_mean_what_they_say t n d ht
  have hb : b.sampleBits / 8 = n := by omega
  unfold imageFile
  rw [if_neg (means_nonempty ht), hb, h1]
  simp only
  cases hp : imageProps b with
  | error e => exact ⟨e, rfl⟩
  | ok p =>
    simp only
    obtain ⟨r1, r2, r3, r4, r5, r6, r7, r8, -⟩ := C11_image_label b p hp
    rw [hb] at r6 r7
    have e1 : p.linePrefixPix.getD 0 = 0 := by
      rw [hpre] at r6
      rcases Nat.mul_eq_zero.1 r6 with h | h <;> omega
    have e2 : p.lineSuffixPix.getD 0 = 0 := by
      rw [hsuf] at r7
      rcases Nat.mul_eq_zero.1 r7 with h | h <;> omega
    rw [e1, e2] at r8
    obtain ⟨z1, z2, z3, z4, z5, z6, q1, q2, q3⟩ := r5
    have hpix : pixels p = b.bands.getD 1 * b.lines * b.lineSamples := by
      unfold pixels
      rw [r1, r2, r3, r8, q1, q2, q3]
      ring
    unfold load
    cases checkFixValidity p with
    | error e => exact ⟨e, rfl⟩
    | ok u =>
      simp only [h2]
      cases hr : readRecords src.compressed src.file start d.size (pixels p) with
      | error e => exact ⟨e, rfl⟩
      | ok cells =>
        simp only
        have hl := readRecords_length _ _ _ _ _ _ hr
        refine C11_short_file _ _ p (Or.inr q3) r8 ?_
        rw [elems_eq, List.length_map]
        refine lt_of_le_of_lt hl ?_
        rw [Nat.div_lt_iff_lt_mul (by omega), hpix, h3]
        exact hsh

/-! ### examples -/

/-- 2 lines of 2 signed 16-bit pixels, with a prefix of one pixel, after 3 bytes of label -/
def exImage : ImageBlock where
  sampleBits := 16
  lines := 2
  lineSamples := 2
  linePrefixBytes := some 2

def exSrc : Input := ⟨true, [1, 2, 3, 0, 9, 0, 1, 255, 255, 0, 9, 128, 0, 0, 2], id⟩

theorem ex_means : Means (underscored c!"MSB INTEGER") 2 ⟨some .big, .int, 2⟩ := by
  refine .integer ((integer_guard _).1 rfl) (by simp) ?_ (.inl rfl) ?_
  · constructor
    · intro h; cases h
    · intro h
      exact absurd ((order_iff _).2 h) (by decide)
  · constructor
    · intro h; cases h
    · intro h
      exact absurd ((contains_iff _ _).2 h) (by decide)

example : ∃ out, imageFile exSrc exImage c!"MSB INTEGER" 3 = .ok out ∧ out.image.shape = [2, 2] ∧
    Has out.image [0, 1] (.int (-1)) ∧ Has out.image [1, 0] (.int (-32768)) ∧
    ∃ A, out.prefix? = some A ∧ Has A [1, 0] (.int 9) := by
  obtain ⟨out, h1, h2, h3, h4, -⟩ := C68_image_single exSrc exImage c!"MSB INTEGER" 3 2 1 0 _ ex_means
    ⟨by decide, by decide⟩ (by decide) rfl rfl
    rfl rfl (by decide)
  obtain ⟨A, a1, a2, a3⟩ := h4 (by decide)
  refine ⟨out, h1, h2, h3 0 1 _ (by decide) (by decide) ?_, h3 1 0 _ (by decide) (by decide) ?_, A, a1, a3 1 0 _ (by decide) (by decide) ?_⟩
  · exact .signed (by decide) (by decide) (by decide) (by decide) (by decide)
  · exact .signed (by decide) (by decide) (by decide) (by decide) (by decide)
  · exact .signed (by decide) (by decide) (by decide) (by decide) (by decide)

/-- a 2 x 2 array of unsigned bytes -/
example : ∃ A, arrayFile ⟨false, [7, 1, 2, 3, 4], id⟩ [2, 2] c!"UNSIGNED_INTEGER" 1 1 = .ok A ∧ Has A [1, 0] (.int 3) := by
  have hm : Means (underscored c!"UNSIGNED_INTEGER") 1 ⟨some .big, .uint, 1⟩ := by
    refine .integer ((integer_guard _).1 rfl) (by simp) ?_ (.inr rfl) ?_
    · constructor
      · intro h; cases h
      · intro h
        exact absurd ((order_iff _).2 h) (by decide)
    · exact ⟨fun _ => (contains_iff _ _).1 rfl, fun _ => rfl⟩
  obtain ⟨A, h1, -, h3⟩ := C68_array ⟨false, [7, 1, 2, 3, 4], id⟩ [2, 2] c!"UNSIGNED_INTEGER" 1 1 _ hm (by decide) rfl (by decide)
  exact ⟨A, h1, h3 [1, 0] _ (.cons (by decide) (.cons (by decide) .nil)) (.unsigned rfl (by decide))⟩

end Verif.ImageFile
