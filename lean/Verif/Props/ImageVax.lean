/-
C68, C69: VAX reals in images.
-/
import Verif.Props.ImageFile

namespace Verif.ImageFile
open Verif.Py Verif.Bits Verif.Datatypes Verif.Datatypes.Spec Verif.Image Verif.Image.Spec Verif.Table Verif.Table.Spec
  Verif.ImageFile.Spec Verif.Float

/-- words of VAX reals -/
abbrev vaxWord : Dtype := ⟨some .little, .uint, 4⟩

/-- what is relied on of `vax.from_vax32`, for elements of arrays (see `Table.Spec.ReadsVax`) -/
def ConvertsVax (f : Elem → Elem) : Prop := ∀ (w : Nat) x, VaxReal w x → Rep Float.single x → f (.int w) = .real (some x)

/-- the word number `i` from byte `start` on -/
def wordAt (file : Bytes) (start i : Nat) : Nat := number .little (bytesAt file (start + i * 4) 4)

theorem load_vax (src : Input) (start : Nat) (code : Str) (p : Props) (d : Dtype) (hd : npDtype code = some d) (h0 : 0 < d.size)
    (hen : start + pixels p * d.size ≤ src.file.length) :
    load src start code true p = readImage src.vax (fileElems src.file start d (pixels p)) p := by
  unfold load
  cases hv : checkFixValidity p with
  | error e => simp only [readImage, hv]
  | ok u =>
    simp only [hd, readRecords_eq _ _ _ _ _ h0 hen, elems_eq, List.map_map]
    rfl

theorem word_elem {file : Bytes} {start n i : Nat} {e : Elem} (hen : start + n * 4 ≤ file.length)
    (he : (fileElems file start vaxWord n)[i]? = some e) : e = .int (wordAt file start i) := by
  have hi : i < n := by
    by_contra hc
    rw [List.getElem?_eq_none (by rw [fileElems_length]; omega)] at he
    cases he
  have hat : At file start vaxWord i (.int (wordAt file start i)) := by
    refine .unsigned ?_ rfl
    unfold bytesAt
    rw [List.length_take, List.length_drop]
    show min 4 (file.length - (start + i * 4)) = 4
    omega
  have := fileElems_at he hat
  generalize hv : Value.int (wordAt file start i : Int) = v at this
  cases this with
  | int => injection hv with hv; rw [hv]
  | real => cases hv
  | notFinite => cases hv
  | bytes => cases hv

/-- **C68 (VAX reals, one band).** Pixel `[line][sample]` is the VAX real that is stored at its place (if `vax.from_vax32`
converts it as it should). -/
theorem C68_vax_single (src : Input) (hv : ConvertsVax src.vax) (b : ImageBlock) (start pre suf : Nat) (hbits : b.sampleBits = 32)
    (hpre : b.linePrefixBytes.getD 0 = pre * 4) (hsuf : b.lineSuffixBytes.getD 0 = suf * 4) (hb : b.bands.getD 1 = 1)
    (hen : start + b.lines * (pre + b.lineSamples + suf) * 4 ≤ src.file.length) :
    ∃ out, imageFile src b c!"VAX_REAL" start = .ok out ∧ out.image.shape = [b.lines, b.lineSamples] ∧
      ∀ l s x, l < b.lines → s < b.lineSamples →
        VaxReal (wordAt src.file start (l * (pre + b.lineSamples + suf) + pre + s)) x → Rep Float.single x →
        Has out.image [l, s] (.real x) := by
  obtain ⟨hd, p, code, h1, h2, h3, h4, h5⟩ := imageFile_eq src b c!"VAX_REAL" start 4 pre suf vaxWord .vax (by decide) hbits hpre hsuf (by omega)
  obtain ⟨r1, r2, r3, r4, r5, -, -, r8, -⟩ := C11_image_label b p h1
  rw [hb] at r3
  rw [h2, h3] at r8
  have hpix : pixels p = b.lines * (pre + b.lineSamples + suf) := by
    obtain ⟨-, -, -, -, -, -, q1, q2, q3⟩ := r5
    unfold pixels
    rw [r1, r2, r3, r8, q1, q2, q3]
    ring
  have hen' : start + pixels p * 4 ≤ src.file.length := by rw [hpix]; exact hen
  rw [h5, decide_eq_true rfl, load_vax src start code p vaxWord h4 (by decide) hen']
  obtain ⟨out, o1, o2, o3, o4, o5⟩ := C11_line_prefix_suffix src.vax (fileElems src.file start vaxWord (pixels p)) p pre suf r3 r5 h2 h3 r8
    (by rw [fileElems_length, hpix, r1, r2])
  rw [r1, r2] at o2 o3
  refine ⟨out, o1, o2, ?_⟩
  intro l s x hl hs hx hr
  obtain ⟨e, he, hg⟩ := o3 l s hl hs
  refine ⟨_, hg, ?_⟩
  rw [word_elem hen' he, hv _ x hx hr]
  exact .real

/-- **C68 (VAX reals, several bands).** -/
theorem C68_vax_bands (src : Input) (hv : ConvertsVax src.vax) (b : ImageBlock) (start B : Nat) (st : Storage) (hbits : b.sampleBits = 32)
    (hpre : b.linePrefixBytes.getD 0 = 0) (hsuf : b.lineSuffixBytes.getD 0 = 0) (hb : b.bands = some B) (hB : 1 < B)
    (hbst : b.bst ≠ none) (hst : StorageOf b.bst st)
    (hen : start + B * b.lines * b.lineSamples * 4 ≤ src.file.length) :
    ∃ out, imageFile src b c!"VAX_REAL" start = .ok out ∧ out.image.shape = [B, b.lines, b.lineSamples] ∧
      ∀ k l s x, k < B → l < b.lines → s < b.lineSamples →
        VaxReal (wordAt src.file start (position st B b.lines b.lineSamples k l s)) x → Rep Float.single x →
        Has out.image [k, l, s] (.real x) := by
  obtain ⟨hd, p, code, h1, h2, h3, h4, h5⟩ := imageFile_eq src b c!"VAX_REAL" start 4 0 0 vaxWord .vax (by decide) hbits (by omega) (by omega)
    (fun _ => hbst)
  obtain ⟨r1, r2, r3, r4, r5, -, -, r8, -⟩ := C11_image_label b p h1
  rw [h2, h3] at r8
  rw [hb, Option.getD_some] at r3
  rw [if_neg (by rw [hb]; simp)] at r4
  have hpl := planesOk_of_none r5 r8
  obtain ⟨z1, z2, z3, z4, z5, z6, q1, q2, q3⟩ := r5
  have hpix : pixels p = B * b.lines * b.lineSamples := by
    unfold pixels
    rw [r1, r2, r3, r8, q1, q2, q3]
    ring
  have hen' : start + pixels p * 4 ≤ src.file.length := by rw [hpix]; exact hen
  rw [h5, decide_eq_true rfl, load_vax src start code p vaxWord h4 (by decide) hen']
  obtain ⟨out, o1, o2, o3⟩ := C11_multiband_pixels src.vax (fileElems src.file start vaxWord (pixels p)) p st (by rw [r4]; exact hst)
    (by omega) hpl (by rw [fileElems_length])
  rw [r1, r2, r3] at o2 o3
  refine ⟨out, o1, o2, ?_⟩
  intro k l s x hk hl hs hx hr
  obtain ⟨e, he, hg⟩ := o3 k l s hk hl hs
  rw [q1, q2, q3, z1, z2, z3] at he
  simp only [Nat.add_zero, Option.getD_none] at he
  refine ⟨_, hg, ?_⟩
  rw [word_elem hen' he, hv _ x hx hr]
  exact .real

/-- **C69 (limit: prefixes and suffixes).** The elements of line prefixes and suffixes of an image of VAX reals are not
converted: they are the words of the file as unsigned numbers. -/
theorem C69_vax_linefix (src : Input) (b : ImageBlock) (start pre suf : Nat) (hbits : b.sampleBits = 32)
    (hpre : b.linePrefixBytes.getD 0 = pre * 4) (hsuf : b.lineSuffixBytes.getD 0 = suf * 4) (hb : b.bands.getD 1 = 1)
    (hen : start + b.lines * (pre + b.lineSamples + suf) * 4 ≤ src.file.length) :
    ∃ out, imageFile src b c!"VAX_REAL" start = .ok out ∧
      (0 < pre → ∃ A, out.prefix? = some A ∧ A.shape = [b.lines, pre] ∧ ∀ l s, l < b.lines → s < pre →
        Has A [l, s] (.int (wordAt src.file start (l * (pre + b.lineSamples + suf) + s)))) ∧
      (0 < suf → ∃ A, out.suffix? = some A ∧ A.shape = [b.lines, suf] ∧ ∀ l s, l < b.lines → s < suf →
        Has A [l, s] (.int (wordAt src.file start (l * (pre + b.lineSamples + suf) + pre + b.lineSamples + s)))) := by
  obtain ⟨hd, p, code, h1, h2, h3, h4, h5⟩ := imageFile_eq src b c!"VAX_REAL" start 4 pre suf vaxWord .vax (by decide) hbits hpre hsuf (by omega)
  obtain ⟨r1, r2, r3, r4, r5, -, -, r8, -⟩ := C11_image_label b p h1
  rw [hb] at r3
  rw [h2, h3] at r8
  have hpix : pixels p = b.lines * (pre + b.lineSamples + suf) := by
    obtain ⟨-, -, -, -, -, -, q1, q2, q3⟩ := r5
    unfold pixels
    rw [r1, r2, r3, r8, q1, q2, q3]
    ring
  have hen' : start + pixels p * 4 ≤ src.file.length := by rw [hpix]; exact hen
  rw [h5, decide_eq_true rfl, load_vax src start code p vaxWord h4 (by decide) hen']
  obtain ⟨out, o1, o2, o3, o4, o5⟩ := C11_line_prefix_suffix src.vax (fileElems src.file start vaxWord (pixels p)) p pre suf r3 r5 h2 h3 r8
    (by rw [fileElems_length, hpix, r1, r2])
  rw [r1, r2] at o5
  rw [r1] at o4
  refine ⟨out, o1, ?_, ?_⟩
  · intro h
    obtain ⟨A, a1, a2, a3⟩ := o4 h
    refine ⟨A, a1, a2, ?_⟩
    intro l s hl hs
    obtain ⟨x, hx, hg⟩ := a3 l s hl hs
    rw [r2] at hx
    exact ⟨x, hg, by rw [word_elem hen' hx]; exact .int⟩
  · intro h
    obtain ⟨A, a1, a2, a3⟩ := o5 h
    refine ⟨A, a1, a2, ?_⟩
    intro l s hl hs
    obtain ⟨x, hx, hg⟩ := a3 l s hl hs
    exact ⟨x, hg, by rw [word_elem hen' hx]; exact .int⟩

/-- **C69 (limit: spelling).** The pixels of an image are not converted if its SAMPLE_TYPE is VAX REAL, without the
underscore: they are the words of the file as unsigned numbers. -/
theorem C69_vax_spelling (src : Input) (b : ImageBlock) (t : Str) (start : Nat) (ht : underscored t = c!"VAX_REAL")
    (hne : t ≠ c!"VAX_REAL") (hbits : b.sampleBits = 32) (hpre : b.linePrefixBytes = none) (hsuf : b.lineSuffixBytes = none)
    (hb : b.bands = none) (hen : start + b.lines * b.lineSamples * 4 ≤ src.file.length) :
    ∃ out, imageFile src b t start = .ok out ∧ out.image.shape = [b.lines, b.lineSamples] ∧
      ∀ l s, l < b.lines → s < b.lineSamples → Has out.image [l, s] (.int (wordAt src.file start (l * b.lineSamples + s))) := by
  have hm : Means (underscored t) 4 vaxWord := by rw [ht]; exact .vax
  obtain ⟨out, o1, o2, o3, -⟩ := single src b t start 4 0 0 _ hm hne (by omega) hbits (by rw [hpre]; simp)
    (by rw [hsuf]; simp) (by rw [hb]; rfl) (by simpa using hen)
  refine ⟨out, o1, o2, ?_⟩
  intro l s hl hs
  apply o3 l s _ hl hs
  simp only [At, Nat.zero_add, Nat.add_zero]
  refine .unsigned ?_ rfl
  unfold bytesAt
  rw [List.length_take, List.length_drop]
  have h1 : (l + 1) * b.lineSamples ≤ b.lines * b.lineSamples := Nat.mul_le_mul_right _ hl
  rw [Nat.add_mul] at h1
  show min 4 (src.file.length - (start + (l * b.lineSamples + s) * 4)) = 4
  omega

/-! ### examples -/

/-- one line of two VAX reals, 1 and -2.5 -/
def vaxImage : ImageBlock where
  sampleBits := 32
  lines := 1
  lineSamples := 2

def vaxFile : Bytes := [0x80, 0x40, 0, 0, 0x20, 0xC1, 0, 0]

example (src : Input) (hv : ConvertsVax src.vax) (hf : src.file = vaxFile) :
    ∃ out, imageFile src vaxImage c!"VAX_REAL" 0 = .ok out ∧ out.image.shape = [1, 2] ∧ Has out.image [0, 0] (.real 1) ∧
      Has out.image [0, 1] (.real (-(5 / 2))) := by
  obtain ⟨out, h1, h2, h3⟩ := C68_vax_single src hv vaxImage 0 0 0 rfl rfl rfl rfl (by rw [hf]; decide)
  refine ⟨out, h1, h2, h3 0 0 1 (by decide) (by decide) ?_ ?_, h3 0 1 (-(5 / 2)) (by decide) (by decide) ?_ ?_⟩
  · rw [hf]
    have := VaxReal.real (w := wordAt vaxFile 0 (0 * (0 + vaxImage.lineSamples + 0) + 0 + 0)) (by decide)
    rw [show wordAt vaxFile 0 (0 * (0 + vaxImage.lineSamples + 0) + 0 + 0) = 0x4080 by decide] at this ⊢
    norm_num at this
    exact this
  · exact ⟨1, 0, by norm_num [Float.single], by show (-149 : Int) ≤ _; omega, by show _ ≤ (104 : Int); omega, by norm_num⟩
  · rw [hf]
    have := VaxReal.real (w := wordAt vaxFile 0 (0 * (0 + vaxImage.lineSamples + 0) + 0 + 1)) (by decide)
    rw [show wordAt vaxFile 0 (0 * (0 + vaxImage.lineSamples + 0) + 0 + 1) = 0xC120 by decide] at this ⊢
    norm_num at this
    exact this
  · exact ⟨-5, -1, by norm_num [Float.single], by show (-149 : Int) ≤ _; omega, by show _ ≤ (104 : Int); omega, by norm_num⟩

example : underscored c!"VAX REAL" = c!"VAX_REAL" ∧ c!"VAX REAL" ≠ c!"VAX_REAL" := by decide

end Verif.ImageFile
