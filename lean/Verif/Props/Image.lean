/-
C11, C39, C40: images.
-/
import Verif.Lemmas.Image
import Mathlib.Tactic.Ring

namespace Verif.Image
open Verif.Py Verif.Bits Verif.Image.Spec

theorem valid_of_planesOk {p : Props} (hp : PlanesOk p) : checkFixValidity p = .ok () := by
  unfold checkFixValidity
  have h0 := hp.noLinefix
  rw [if_neg (by omega), if_neg, if_neg (by omega)]
  rcases hp.oneAxis with ⟨h1, h2⟩ | ⟨h1, h2⟩ | ⟨h1, h2⟩
  · rw [h1, h2]; by_cases h : 0 < p.bandpad <;> simp [List.filter, h]
  · rw [h1, h2]; by_cases h : 0 < p.colpad <;> simp [List.filter, h]
  · rw [h1, h2]; by_cases h : 0 < p.rowpad <;> simp [List.filter, h]

theorem lt_mul3 {a b c i j k : Nat} (hi : i < a) (hj : j < b) (hk : k < c) : (i * b + j) * c + k < a * b * c := by
  have h1 : i * b + j + 1 ≤ a * b := by
    have := Nat.mul_le_mul_right b (Nat.succ_le_of_lt hi)
    rw [Nat.succ_mul] at this
    omega
  have h2 := Nat.mul_le_mul_right c h1
  rw [Nat.add_mul, Nat.one_mul] at h2
  omega

/-- **C11 (multiband images).** For every number of bands, lines and samples, storage order, number of
side planes before and after on one axis, and file content: if the file has enough elements, element
`[b][l][s]` of the image returned is the file's element at the place where the storage order puts band
`b`, line `l`, sample `s` (counting planes before them), and the image has exactly the declared size. -/
theorem C11_multiband_pixels {α : Type} (conv : α → α) (avail : List α) (p : Props) (st : Storage)
    (hst : StorageOf p.bst st) (hb : p.nbands ≠ 1) (hp : PlanesOk p) (hen : pixels p ≤ avail.length) :
    ∃ out, readImage conv avail p = .ok out ∧ out.image.shape = [p.nbands, p.nrows, p.ncols] ∧
      ∀ b l s, b < p.nbands → l < p.nrows → s < p.ncols →
        ∃ x, avail[position st (p.nbands + p.bandpad) (p.nrows + p.rowpad) (p.ncols + p.colpad)
              (b + p.prefixBands.getD 0) (l + p.prefixRows.getD 0) (s + p.prefixCols.getD 0)]? = some x ∧
          out.image.get [b, l, s] = some (conv x) := by
  have hlen : (avail.take (pixels p)).length = pixels p := by simp; omega
  have h0 := hp.noLinefix
  have hpix : pixels p = (p.nrows + p.rowpad) * (p.ncols + p.colpad) * (p.nbands + p.bandpad) := by
    unfold pixels; rw [h0]; rfl
  have finish : ∀ (A : Arr α),
      View3 A (fun i j k => ((avail.take (pixels p))[position st (p.nbands + p.bandpad) (p.nrows + p.rowpad)
        (p.ncols + p.colpad) i j k]?).map conv)
        (p.nbands + p.bandpad) (p.nrows + p.rowpad) (p.ncols + p.colpad) 0 0 0 →
      (extractAxplanes A p).1.shape = [p.nbands, p.nrows, p.ncols] ∧
      ∀ b l s, b < p.nbands → l < p.nrows → s < p.ncols →
        ∃ x, avail[position st (p.nbands + p.bandpad) (p.nrows + p.rowpad) (p.ncols + p.colpad)
              (b + p.prefixBands.getD 0) (l + p.prefixRows.getD 0) (s + p.prefixCols.getD 0)]? = some x ∧
          (extractAxplanes A p).1.get [b, l, s] = some (conv x) := by
    intro A hv
    obtain ⟨g1, g2⟩ := extractAxplanes_view3 hp hv
    refine ⟨g1, ?_⟩
    intro b l s hb' hl hs
    have hr := hp.rows
    have hc := hp.cols
    have hbd := hp.bands
    have hpos : position st (p.nbands + p.bandpad) (p.nrows + p.rowpad) (p.ncols + p.colpad)
        (b + p.prefixBands.getD 0) (l + p.prefixRows.getD 0) (s + p.prefixCols.getD 0) < pixels p := by
      rw [hpix]
      cases st with
      | bandSequential =>
        have := lt_mul3 (a := p.nbands + p.bandpad) (b := p.nrows + p.rowpad) (c := p.ncols + p.colpad)
          (i := b + p.prefixBands.getD 0) (j := l + p.prefixRows.getD 0) (k := s + p.prefixCols.getD 0)
          (by omega) (by omega) (by omega)
        refine Nat.lt_of_lt_of_eq this ?_
        ring
      | lineInterleaved =>
        have := lt_mul3 (a := p.nrows + p.rowpad) (b := p.nbands + p.bandpad) (c := p.ncols + p.colpad)
          (i := l + p.prefixRows.getD 0) (j := b + p.prefixBands.getD 0) (k := s + p.prefixCols.getD 0)
          (by omega) (by omega) (by omega)
        refine Nat.lt_of_lt_of_eq this ?_
        ring
      | sampleInterleaved =>
        exact lt_mul3 (by omega) (by omega) (by omega)
    refine ⟨avail[position st (p.nbands + p.bandpad) (p.nrows + p.rowpad) (p.ncols + p.colpad)
        (b + p.prefixBands.getD 0) (l + p.prefixRows.getD 0) (s + p.prefixCols.getD 0)],
      List.getElem?_eq_getElem (by omega), ?_⟩
    rw [g2]
    beta_reduce
    rw [List.getElem?_take_of_lt hpos, List.getElem?_eq_getElem (by omega)]
    rfl
  unfold readImage
  rw [valid_of_planesOk hp]
  simp only [if_neg hb]
  unfold multiBand
  simp only
  rcases hst with ⟨hs, rfl⟩ | ⟨hs, rfl⟩ | ⟨hs1, hs2, rfl⟩
  · rw [if_pos hs]
    have hbil : bilLinefix ((Arr.ofList (List.take (pixels p) avail)).map conv) p =
        .ok ((Arr.ofList (List.take (pixels p) avail)).map conv, none, none) := by
      unfold bilLinefix; rw [if_pos h0]
    rw [hbil]
    simp only
    rw [reshape_ofList _ _ _ (by rw [hlen, hpix]; simp [prod]; ring)]
    have := finish (Arr.move01 ⟨[p.nrows + p.rowpad, p.nbands + p.bandpad, p.ncols + p.colpad],
      fun idx => ((avail.take (pixels p))[ravel [p.nrows + p.rowpad, p.nbands + p.bandpad, p.ncols + p.colpad] idx]?).map conv⟩)
      ⟨rfl, fun i j k => by
        simp only [Arr.move01, ravel, prod, position, Nat.mul_one, Nat.add_zero]
        congr 2
        ring⟩
    exact ⟨_, rfl, this⟩
  · rw [if_neg (by rw [hs]; decide), if_pos hs]
    rw [reshape_ofList _ _ _ (by rw [hlen, hpix]; simp [prod]; ring)]
    have := finish (Arr.move20 ⟨[p.nrows + p.rowpad, p.ncols + p.colpad, p.nbands + p.bandpad],
      fun idx => ((avail.take (pixels p))[ravel [p.nrows + p.rowpad, p.ncols + p.colpad, p.nbands + p.bandpad] idx]?).map conv⟩)
      ⟨rfl, fun i j k => by
        simp only [Arr.move20, ravel, prod, position, Nat.mul_one, Nat.add_zero]
        congr 2
        ring⟩
    exact ⟨_, rfl, this⟩
  · rw [if_neg hs1, if_neg hs2]
    rw [reshape_ofList _ _ _ (by rw [hlen, hpix]; simp [prod]; ring)]
    have := finish (⟨[p.nbands + p.bandpad, p.nrows + p.rowpad, p.ncols + p.colpad],
      fun idx => ((avail.take (pixels p))[ravel [p.nbands + p.bandpad, p.nrows + p.rowpad, p.ncols + p.colpad] idx]?).map conv⟩)
      ⟨rfl, fun i j k => by
        simp only [ravel, prod, position, Nat.mul_one, Nat.add_zero]
        congr 2
        ring⟩
    exact ⟨_, rfl, this⟩

/-- two lines, three bands, one sample, line-interleaved, with a back plane at the end of each line -/
def exampleProps : Props where
  nrows := 2
  ncols := 1
  nbands := 3
  bst := some c!"LINE_INTERLEAVED"
  bandpad := 1
  suffixBands := some 1

example : PlanesOk exampleProps :=
  ⟨rfl, rfl, rfl, rfl, Or.inl ⟨rfl, rfl⟩, by decide, by decide, by decide⟩

example : StorageOf exampleProps.bst .lineInterleaved := Or.inl ⟨rfl, rfl⟩

/-- **C11 (single-band images with side planes).** Element `[l][s]` of the image is the file's element
number `(l + top) * (samples + side planes) + s + left`, and the image has exactly the declared size. -/
theorem C11_singleband_pixels {α : Type} (conv : α → α) (avail : List α) (p : Props)
    (hb : p.nbands = 1) (hbp : p.bandpad = 0) (hp : PlanesOk p) (hen : pixels p ≤ avail.length) :
    ∃ out, readImage conv avail p = .ok out ∧ out.image.shape = [p.nrows, p.ncols] ∧
      ∀ l s, l < p.nrows → s < p.ncols →
        ∃ x, avail[(l + p.prefixRows.getD 0) * (p.ncols + p.colpad) + (s + p.prefixCols.getD 0)]? = some x ∧
          out.image.get [l, s] = some (conv x) := by
  have hlen : (avail.take (pixels p)).length = pixels p := by simp; omega
  have h0 := hp.noLinefix
  have hpix : pixels p = (p.nrows + p.rowpad) * (p.ncols + p.colpad) := by
    unfold pixels; rw [h0, hb, hbp]; simp
  have hr := hp.rows
  have hc := hp.cols
  unfold readImage
  rw [valid_of_planesOk hp]
  simp only [if_pos hb]
  unfold singleBand singleBandLinefix
  rw [if_pos h0]
  simp only
  rw [reshape_ofList _ _ _ (by rw [hlen, hpix]; simp [prod])]
  obtain ⟨g1, g2⟩ := extractAxplanes_view2
    (A := ⟨[p.nrows + p.rowpad, p.ncols + p.colpad],
      fun idx => ((avail.take (pixels p))[ravel [p.nrows + p.rowpad, p.ncols + p.colpad] idx]?).map conv⟩)
    (F := fun j k => ((avail.take (pixels p))[j * (p.ncols + p.colpad) + k]?).map conv)
    hr hc hp.nonzero.1 hp.nonzero.2.1
    ⟨rfl, fun j k => by simp only [ravel, prod, Nat.mul_one, Nat.add_zero]⟩
  refine ⟨_, rfl, g1, ?_⟩
  intro l s hl hs
  have hpos : (l + p.prefixRows.getD 0) * (p.ncols + p.colpad) + (s + p.prefixCols.getD 0) < pixels p := by
    have := lt_mul3 (a := 1) (b := p.nrows + p.rowpad) (c := p.ncols + p.colpad) (i := 0)
      (j := l + p.prefixRows.getD 0) (k := s + p.prefixCols.getD 0) (by omega) (by omega) (by omega)
    rw [hpix]
    simpa using this
  refine ⟨avail[(l + p.prefixRows.getD 0) * (p.ncols + p.colpad) + (s + p.prefixCols.getD 0)],
      List.getElem?_eq_getElem (by omega), ?_⟩
  rw [g2]
  beta_reduce
  rw [List.getElem?_take_of_lt hpos, List.getElem?_eq_getElem (by omega)]
  rfl

/-- no side planes declared -/
def NoPlanes (p : Props) : Prop :=
  p.prefixRows = none ∧ p.prefixCols = none ∧ p.prefixBands = none ∧
  p.suffixRows = none ∧ p.suffixCols = none ∧ p.suffixBands = none ∧
  p.rowpad = 0 ∧ p.colpad = 0 ∧ p.bandpad = 0

theorem extractAxplanes_none {α : Type} (A : Arr α) {p : Props} (h : NoPlanes p) :
    extractAxplanes A p = (A, []) := by
  obtain ⟨h1, h2, h3, h4, h5, h6, -⟩ := h
  simp [extractAxplanes, axplaneStep, h1, h2, h3, h4, h5, h6]

/-- **C11 (single-band images with line prefixes or suffixes).** With `pre` elements before and `suf`
after each line, element `[l][s]` of the image is the file's element `l * (pre + samples + suf) + pre + s`,
and the prefix and suffix arrays hold exactly the elements before and after each line. -/
theorem C11_line_prefix_suffix {α : Type} (conv : α → α) (avail : List α) (p : Props) (pre suf : Nat)
    (hb : p.nbands = 1) (hn : NoPlanes p)
    (hpre : p.linePrefixPix.getD 0 = pre) (hsuf : p.lineSuffixPix.getD 0 = suf)
    (hpad : p.linepad = pre + suf) (hen : p.nrows * (pre + p.ncols + suf) ≤ avail.length) :
    ∃ out, readImage conv avail p = .ok out ∧ out.image.shape = [p.nrows, p.ncols] ∧
      (∀ l s, l < p.nrows → s < p.ncols →
        ∃ x, avail[l * (pre + p.ncols + suf) + pre + s]? = some x ∧ out.image.get [l, s] = some (conv x)) ∧
      (0 < pre → ∃ A, out.prefix? = some A ∧ A.shape = [p.nrows, pre] ∧
        ∀ l s, l < p.nrows → s < pre → ∃ x, avail[l * (pre + p.ncols + suf) + s]? = some x ∧ A.get [l, s] = some x) ∧
      (0 < suf → ∃ A, out.suffix? = some A ∧ A.shape = [p.nrows, suf] ∧
        ∀ l s, l < p.nrows → s < suf → ∃ x, avail[l * (pre + p.ncols + suf) + pre + p.ncols + s]? = some x ∧
          A.get [l, s] = some x) := by
  obtain ⟨h1, h2, h3, h4, h5, h6, hrp, hcp, hbp⟩ := hn
  by_cases hz : p.linepad = 0
  · have hp0 : pre = 0 := by omega
    have hs0 : suf = 0 := by omega
    subst hp0; subst hs0
    have hP : PlanesOk p := ⟨hz, by simp [h1, h4, hrp], by simp [h2, h5, hcp], by simp [h3, h6, hbp],
      Or.inl ⟨hrp, hcp⟩, by simp [h4], by simp [h5], by simp [h6]⟩
    obtain ⟨out, e1, e2, e3⟩ := C11_singleband_pixels conv avail p hb hbp hP
      (by unfold pixels; rw [hrp, hcp, hbp, hz, hb]; simpa using hen)
    refine ⟨out, e1, e2, ?_, fun h => absurd h (by omega), fun h => absurd h (by omega)⟩
    intro l s hl hs
    simpa [h1, h2, hcp] using e3 l s hl hs
  · have hvalid : checkFixValidity p = .ok () := by
      unfold checkFixValidity
      rw [if_neg (by omega), if_neg (by rw [hrp, hcp, hbp]; simp), if_neg (by omega)]
    have hpix : pixels p = p.nrows * (pre + p.ncols + suf) := by
      unfold pixels
      rw [hrp, hcp, hbp, hb, hpad]
      simp only [Nat.add_zero, Nat.mul_one]
      congr 1
      omega
    have hlen : (avail.take (pixels p)).length = pixels p := by simp; omega
    have hW : p.ncols + p.linepad = pre + p.ncols + suf := by omega
    generalize hWd : pre + p.ncols + suf = W at *
    have hat : ∀ l k, l < p.nrows → k < W → ∃ x, avail[l * W + k]? = some x ∧
        (avail.take (pixels p))[l * W + k]? = some x := by
      intro l k hl hk
      have hpos : l * W + k < pixels p := by
        rw [hpix]
        have := lt_mul3 (a := 1) (b := p.nrows) (c := W) (i := 0) (j := l) (k := k) (by omega) hl hk
        simpa using this
      refine ⟨avail[l * W + k], List.getElem?_eq_getElem (by omega), ?_⟩
      rw [List.getElem?_take_of_lt hpos, List.getElem?_eq_getElem (by omega)]
    have hresh : (Arr.ofList (avail.take (pixels p))).reshape [p.nrows, W] =
        .ok ⟨[p.nrows, W], fun idx => (avail.take (pixels p))[ravel [p.nrows, W] idx]?⟩ := by
      have := reshape_ofList (avail.take (pixels p)) id [p.nrows, W] (by rw [hlen, hpix]; simp [prod])
      simpa [Arr.map] using this
    have hv : View2 (⟨[p.nrows, W], fun idx => (avail.take (pixels p))[ravel [p.nrows, W] idx]?⟩ : Arr α)
        (fun l k => (avail.take (pixels p))[l * W + k]?) p.nrows W 0 0 :=
      ⟨rfl, fun l k => by simp only [ravel, prod, Nat.mul_one, Nat.add_zero]⟩
    have hcut := cut_view2 pre suf hv (by omega)
    unfold readImage
    rw [hvalid]
    simp only [if_pos hb]
    unfold singleBand singleBandLinefix
    rw [if_neg hz, hW, hresh]
    simp only [hpre, hsuf]
    generalize hA : (⟨[p.nrows, W], fun idx => (avail.take (pixels p))[ravel [p.nrows, W] idx]?⟩ : Arr α) = A at *
    generalize hB : (if 0 < pre then
        (if 0 < suf then A.slice 1 none (some (-(suf : Int))) else A).slice 1 (some (pre : Int)) none
      else (if 0 < suf then A.slice 1 none (some (-(suf : Int))) else A)) = B at hcut
    obtain ⟨c1, c2⟩ := hcut
    have hwid : W - pre - suf = p.ncols := by omega
    rw [hwid] at c1
    have hre2 : (Arr.map conv B).reshape [p.nrows + p.rowpad, p.ncols + p.colpad] =
        .ok ⟨[p.nrows, p.ncols], fun idx => ((B.get (unravel [p.nrows, p.ncols] (ravel [p.nrows, p.ncols] idx))).map conv)⟩ := by
      unfold Arr.reshape Arr.map
      simp only [c1, hrp, hcp, Nat.add_zero, if_true]
    rw [hre2]
    simp only [extractAxplanes_none _ (⟨h1, h2, h3, h4, h5, h6, hrp, hcp, hbp⟩ : NoPlanes p)]
    refine ⟨_, rfl, rfl, ?_, ?_, ?_⟩
    · intro l s hl hs
      obtain ⟨x, x1, x2⟩ := hat l (pre + s) hl (by omega)
      refine ⟨x, by rw [← x1]; congr 1; omega, ?_⟩
      simp only [ravel, prod, Nat.mul_one, Nat.add_zero]
      rw [unravel2 _ _ _ _ hs, c2]
      simp only [Nat.add_zero, Nat.add_comm s pre, x2, Option.map_some]
    · intro hp
      rw [if_pos hp]
      refine ⟨_, rfl, ?_, ?_⟩
      · by_cases hs : 0 < suf
        · simp [hs, Arr.slice, hv.1, clampIx_neg _ _ hs, clampIx_nat]
          omega
        · simp [hs, Arr.slice, hv.1, clampIx_nat]
          omega
      · intro l s hl hs'
        obtain ⟨x, x1, x2⟩ := hat l s hl (by omega)
        refine ⟨x, x1, ?_⟩
        by_cases hs : 0 < suf
        · simp [hs, Arr.slice, hv.2, x2]
        · simp [hs, Arr.slice, hv.2, x2]
    · intro hs
      refine ⟨_, if_pos hs, ?_, ?_⟩
      · simp [Arr.slice, hv.1, clampIx_neg _ _ hs]
        omega
      · intro l s hl hs'
        obtain ⟨x, x1, x2⟩ := hat l (pre + p.ncols + s) hl (by omega)
        refine ⟨x, by rw [← x1]; congr 1; omega, ?_⟩
        have : s + (W - suf) = pre + p.ncols + s := by omega
        simp [Arr.slice, hv.1, hv.2, clampIx_neg _ _ hs, this, x2]

/-- one line prefix element, two samples, two lines -/
example : ∃ out, readImage id [10, 1, 2, 20, 3, 4]
    { nrows := 2, ncols := 2, nbands := 1, bst := none, linepad := 1, linePrefixPix := some 1 } = .ok out ∧
    out.image.get [1, 0] = some 3 := ⟨_, rfl, rfl⟩

/-- **C11 (line-interleaved cubes with line prefixes or suffixes, last object of the file).** If exactly
the image's own elements are left in the file, band `b`, line `l`, sample `s` is read from
`l * (pre + bands * samples + suf) + pre + b * samples + s`. -/
theorem C11_bil_last_object {α : Type} (conv : α → α) (avail : List α) (p : Props)
    (hb : 1 < p.nbands) (hn : NoPlanes p) (hbst : p.bst = some c!"LINE_INTERLEAVED") (hr : 0 < p.nrows)
    (hpre : p.linePrefixPix ≠ some 0) (hsuf : p.lineSuffixPix ≠ some 0)
    (hpad : p.linepad = p.linePrefixPix.getD 0 + p.lineSuffixPix.getD 0) (hpos : 0 < p.linepad)
    (hen : avail.length = p.nrows * (p.linePrefixPix.getD 0 + p.nbands * p.ncols + p.lineSuffixPix.getD 0)) :
    ∃ out, readImage conv avail p = .ok out ∧ out.image.shape = [p.nbands, p.nrows, p.ncols] ∧
      ∀ b l s, b < p.nbands → l < p.nrows → s < p.ncols →
        ∃ x, avail[l * (p.linePrefixPix.getD 0 + p.nbands * p.ncols + p.lineSuffixPix.getD 0) +
            p.linePrefixPix.getD 0 + b * p.ncols + s]? = some x ∧ out.image.get [b, l, s] = some (conv x) := by
  have hn' := hn
  obtain ⟨h1, h2, h3, h4, h5, h6, hrp, hcp, hbp⟩ := hn
  have hvalid : checkFixValidity p = .ok () := by
    unfold checkFixValidity
    rw [if_neg (by omega), if_neg (by rw [hrp, hcp, hbp]; simp), if_neg (by simp [hbst])]
  generalize hq : p.linePrefixPix.getD 0 = pre at *
  generalize hs : p.lineSuffixPix.getD 0 = suf at *
  generalize hWd : pre + p.nbands * p.ncols + suf = W at *
  have hpix : pixels p = p.nrows * (p.ncols + (pre + suf)) * p.nbands := by
    unfold pixels
    rw [hrp, hcp, hbp, hpad]; rfl
  have hle : avail.length ≤ pixels p := by
    rw [hen, hpix, Nat.mul_assoc]
    refine Nat.mul_le_mul_left _ ?_
    rw [← hWd, Nat.add_mul]
    have : pre + suf ≤ (pre + suf) * p.nbands := by
      calc pre + suf = (pre + suf) * 1 := by omega
        _ ≤ _ := Nat.mul_le_mul_left _ (by omega)
    have e : p.ncols * p.nbands = p.nbands * p.ncols := Nat.mul_comm _ _
    omega
  have htake : avail.take (pixels p) = avail := List.take_of_length_le hle
  unfold readImage
  rw [hvalid]
  simp only [if_neg (show ¬ p.nbands = 1 by omega)]
  unfold multiBand
  simp only [htake, if_pos hbst]
  unfold bilLinefix
  rw [if_neg (by omega), if_neg (by omega)]
  have hdiv : prod ((Arr.ofList avail).map conv).shape / p.nrows = W := by
    simp [Arr.map, Arr.ofList, prod, hen]
    exact Nat.mul_div_cancel_left _ hr
  rw [hdiv, reshape_ofList _ _ _ (by rw [hen]; simp [prod])]
  have hv : View2 (⟨[p.nrows, W], fun idx => (avail[ravel [p.nrows, W] idx]?).map conv⟩ : Arr α)
      (fun l k => (avail[l * W + k]?).map conv) p.nrows W 0 0 :=
    ⟨rfl, fun l k => by simp only [ravel, prod, Nat.mul_one, Nat.add_zero]⟩
  have hcut := cut_view2 pre suf hv (by omega)
  simp only
  generalize hA : (⟨[p.nrows, W], fun idx => (avail[ravel [p.nrows, W] idx]?).map conv⟩ : Arr α) = A at *
  have e1 : cutSuffix A p.lineSuffixPix =
      (if 0 < suf then A.slice 1 none (some (-(suf : Int))) else A) := by
    cases hh : p.lineSuffixPix with
    | none => rw [hh] at hs; simp only [Option.getD_none] at hs; subst hs; rfl
    | some v =>
      rw [hh] at hs; simp only [Option.getD_some] at hs; subst hs
      refine (if_pos ?_).symm
      refine Nat.pos_of_ne_zero ?_
      intro h0; exact hsuf (by rw [hh, h0])
  rw [e1]
  generalize hB0 : (if 0 < suf then A.slice 1 none (some (-(suf : Int))) else A) = B0 at *
  have e2 : cutPrefix B0 p.linePrefixPix =
      (if 0 < pre then B0.slice 1 (some (pre : Int)) none else B0) := by
    cases hh : p.linePrefixPix with
    | none => rw [hh] at hq; simp only [Option.getD_none] at hq; subst hq; rfl
    | some v =>
      rw [hh] at hq; simp only [Option.getD_some] at hq; subst hq
      refine (if_pos ?_).symm
      refine Nat.pos_of_ne_zero ?_
      intro h0; exact hpre (by rw [hh, h0])
  rw [e2]
  generalize hB : (if 0 < pre then B0.slice 1 (some (pre : Int)) none else B0) = B at *
  obtain ⟨c1, c2⟩ := hcut
  have hwid : W - pre - suf = p.nbands * p.ncols := by omega
  rw [hwid] at c1
  have hre : B.reshape [p.nrows + p.rowpad, p.nbands + p.bandpad, p.ncols + p.colpad] =
      .ok ⟨[p.nrows, p.nbands, p.ncols],
        fun idx => B.get (unravel [p.nrows, p.nbands * p.ncols] (ravel [p.nrows, p.nbands, p.ncols] idx))⟩ := by
    unfold Arr.reshape
    simp only [c1, hrp, hcp, hbp, Nat.add_zero]
    rw [if_pos (by simp [prod])]
  rw [hre]
  simp only [extractAxplanes_none _ hn']
  refine ⟨_, rfl, rfl, ?_⟩
  intro b l s hb' hl hs'
  have hbs : b * p.ncols + s < p.nbands * p.ncols := by
    have := lt_mul3 (a := 1) (b := p.nbands) (c := p.ncols) (i := 0) (j := b) (k := s) (by omega) hb' hs'
    simpa using this
  have hlt : l * W + (pre + (b * p.ncols + s)) < avail.length := by
    rw [hen]
    have := lt_mul3 (a := 1) (b := p.nrows) (c := W) (i := 0) (j := l) (k := pre + (b * p.ncols + s))
      (by omega) hl (by omega)
    simpa using this
  refine ⟨avail[l * W + (pre + (b * p.ncols + s))], ?_, ?_⟩
  · rw [← List.getElem?_eq_getElem hlt]
    congr 1
    omega
  · simp only [Arr.move01, ravel, prod, Nat.mul_one, Nat.add_zero]
    rw [unravel2 _ _ _ _ hbs, c2]
    simp only [Nat.add_zero, Nat.add_comm _ pre]
    rw [List.getElem?_eq_getElem hlt]
    rfl

/-- **C40 (limit).** If anything follows the image in the file, a line-interleaved cube of several bands
with line prefixes or suffixes cannot be read: the reader counts the prefix and suffix once per band. -/
theorem C40_bil_linefix_followed_by_data {α : Type} (conv : α → α) (avail : List α) (p : Props)
    (hb : 1 < p.nbands) (hn : NoPlanes p) (hbst : p.bst = some c!"LINE_INTERLEAVED") (hr : 0 < p.nrows)
    (hpre : p.linePrefixPix ≠ some 0) (hsuf : p.lineSuffixPix ≠ some 0)
    (hpad : p.linepad = p.linePrefixPix.getD 0 + p.lineSuffixPix.getD 0) (hpos : 0 < p.linepad)
    (hen : pixels p ≤ avail.length) :
    readImage conv avail p = .error .valueError := by
  obtain ⟨h1, h2, h3, h4, h5, h6, hrp, hcp, hbp⟩ := hn
  have hvalid : checkFixValidity p = .ok () := by
    unfold checkFixValidity
    rw [if_neg (by omega), if_neg (by rw [hrp, hcp, hbp]; simp), if_neg (by simp [hbst])]
  generalize hq : p.linePrefixPix.getD 0 = pre at *
  generalize hs : p.lineSuffixPix.getD 0 = suf at *
  have hpix : pixels p = p.nrows * ((p.ncols + (pre + suf)) * p.nbands) := by
    unfold pixels
    rw [hrp, hcp, hbp, hpad]
    simp [Nat.mul_assoc]
  generalize hWd : (p.ncols + (pre + suf)) * p.nbands = W at *
  have hWbig : p.nbands * p.ncols + 2 * (pre + suf) ≤ W := by
    rw [← hWd, Nat.add_mul, Nat.mul_comm p.ncols]
    have : (pre + suf) * 2 ≤ (pre + suf) * p.nbands := Nat.mul_le_mul_left _ (by omega)
    omega
  have hlen : (avail.take (pixels p)).length = pixels p := by simp; omega
  unfold readImage
  rw [hvalid]
  simp only [if_neg (show ¬ p.nbands = 1 by omega)]
  unfold multiBand
  simp only [if_pos hbst]
  unfold bilLinefix
  rw [if_neg (by omega), if_neg (by omega)]
  have hdiv : prod ((Arr.ofList (avail.take (pixels p))).map conv).shape / p.nrows = W := by
    simp only [Arr.map, Arr.ofList, prod, Nat.mul_one]
    rw [hlen, hpix]
    exact Nat.mul_div_cancel_left _ hr
  rw [hdiv, reshape_ofList _ _ _ (by rw [hlen, hpix]; simp [prod])]
  have hv : View2 (⟨[p.nrows, W], fun idx => ((avail.take (pixels p))[ravel [p.nrows, W] idx]?).map conv⟩ : Arr α)
      (fun l k => ((avail.take (pixels p))[l * W + k]?).map conv) p.nrows W 0 0 :=
    ⟨rfl, fun l k => by simp only [ravel, prod, Nat.mul_one, Nat.add_zero]⟩
  have hcut := cut_view2 pre suf hv (by omega)
  simp only
  generalize hA : (⟨[p.nrows, W], fun idx => ((avail.take (pixels p))[ravel [p.nrows, W] idx]?).map conv⟩ : Arr α) = A at *
  have e1 : cutSuffix A p.lineSuffixPix =
      (if 0 < suf then A.slice 1 none (some (-(suf : Int))) else A) := by
    cases hh : p.lineSuffixPix with
    | none => rw [hh] at hs; simp only [Option.getD_none] at hs; subst hs; rfl
    | some v =>
      rw [hh] at hs; simp only [Option.getD_some] at hs; subst hs
      refine (if_pos ?_).symm
      refine Nat.pos_of_ne_zero ?_
      intro h0; exact hsuf (by rw [hh, h0])
  rw [e1]
  generalize hB0 : (if 0 < suf then A.slice 1 none (some (-(suf : Int))) else A) = B0 at *
  have e2 : cutPrefix B0 p.linePrefixPix =
      (if 0 < pre then B0.slice 1 (some (pre : Int)) none else B0) := by
    cases hh : p.linePrefixPix with
    | none => rw [hh] at hq; simp only [Option.getD_none] at hq; subst hq; rfl
    | some v =>
      rw [hh] at hq; simp only [Option.getD_some] at hq; subst hq
      refine (if_pos ?_).symm
      refine Nat.pos_of_ne_zero ?_
      intro h0; exact hpre (by rw [hh, h0])
  rw [e2]
  generalize hB : (if 0 < pre then B0.slice 1 (some (pre : Int)) none else B0) = B at *
  obtain ⟨c1, c2⟩ := hcut
  have hre : B.reshape [p.nrows + p.rowpad, p.nbands + p.bandpad, p.ncols + p.colpad] = .error .valueError := by
    unfold Arr.reshape
    rw [if_neg]
    simp only [c1, prod, hrp, hcp, hbp, Nat.add_zero, Nat.mul_one]
    intro h
    have := Nat.eq_of_mul_eq_mul_left hr h
    omega
  rw [hre]

/-- **C39 (limit).** A block of side planes declared with zero planes at the end of the line axis leaves
an image without any lines, whatever the file holds (`a[:-0]` is empty). -/
theorem C39_zero_suffix_planes_empty_image {α : Type} (conv : α → α) (avail : List α) (p : Props)
    (hz : p.suffixRows = some 0 ∧ p.prefixRows = none ∧ p.rowpad = 0)
    (hn : p.prefixCols = none ∧ p.suffixCols = none ∧ p.colpad = 0 ∧
          p.prefixBands = none ∧ p.suffixBands = none ∧ p.bandpad = 0)
    (hl : p.linepad = 0) (hb : p.nbands ≠ 1) (hen : pixels p ≤ avail.length) :
    ∃ out, readImage conv avail p = .ok out ∧ out.image.shape = [p.nbands, 0, p.ncols] := by
  obtain ⟨z1, z2, hrp⟩ := hz
  obtain ⟨n1, n2, hcp, n3, n4, hbp⟩ := hn
  have hvalid : checkFixValidity p = .ok () := by
    unfold checkFixValidity
    rw [if_neg (by omega), if_neg (by rw [hrp, hcp, hbp]; simp), if_neg (by omega)]
  have hlen : (avail.take (pixels p)).length = p.nrows * p.ncols * p.nbands := by
    have : pixels p = p.nrows * p.ncols * p.nbands := by unfold pixels; rw [hrp, hcp, hbp, hl]; rfl
    rw [← this]; simp; omega
  have hax : ∀ A : Arr α, A.shape = [p.nbands, p.nrows, p.ncols] →
      (extractAxplanes A p).1.shape = [p.nbands, 0, p.ncols] := by
    intro A hA
    simp [extractAxplanes, axplaneStep, z1, z2, n1, n2, n3, n4, hA, Arr.slice, clampIx]
  unfold readImage
  rw [hvalid]
  simp only [if_neg hb]
  unfold multiBand
  simp only [hrp, hcp, hbp, Nat.add_zero]
  by_cases hs : p.bst = some c!"LINE_INTERLEAVED"
  · rw [if_pos hs]
    have hbil : bilLinefix ((Arr.ofList (List.take (pixels p) avail)).map conv) p =
        .ok ((Arr.ofList (List.take (pixels p) avail)).map conv, none, none) := by
      unfold bilLinefix; rw [if_pos hl]
    rw [hbil]
    simp only
    rw [reshape_ofList _ _ _ (by rw [hlen]; simp [prod]; ring)]
    exact ⟨_, rfl, hax _ rfl⟩
  · rw [if_neg hs]
    by_cases hs2 : p.bst = some c!"SAMPLE_INTERLEAVED"
    · rw [if_pos hs2, reshape_ofList _ _ _ (by rw [hlen]; simp [prod]; ring)]
      exact ⟨_, rfl, hax _ rfl⟩
    · rw [if_neg hs2, reshape_ofList _ _ _ (by rw [hlen]; simp [prod]; ring)]
      exact ⟨_, rfl, hax _ rfl⟩

/-- **C11 (short files).** A cube without line prefixes or suffixes is never read from a file holding
fewer elements than declared. -/
theorem C11_short_file {α : Type} (conv : α → α) (avail : List α) (p : Props)
    (hb : p.nbands ≠ 1 ∨ p.bandpad = 0) (hl : p.linepad = 0) (hsh : avail.length < pixels p) :
    ∃ e, readImage conv avail p = .error e := by
  have htake : avail.take (pixels p) = avail := List.take_of_length_le (by omega)
  have hpix : pixels p = (p.nrows + p.rowpad) * (p.ncols + p.colpad) * (p.nbands + p.bandpad) := by
    unfold pixels; rw [hl]; rfl
  unfold readImage
  cases checkFixValidity p with
  | error e => exact ⟨e, rfl⟩
  | ok u =>
    have hno : ∀ sh, prod sh = pixels p → ((Arr.ofList avail).map conv).reshape sh = .error .valueError := by
      intro sh h
      unfold Arr.reshape
      rw [if_neg]
      rw [h]
      simp only [Arr.map, Arr.ofList, prod, Nat.mul_one]
      omega
    by_cases h1 : p.nbands = 1
    · simp only [if_pos h1]
      have hbp : p.bandpad = 0 := by rcases hb with h | h; exact absurd h1 h; exact h
      unfold singleBand singleBandLinefix
      rw [if_pos hl, htake]
      simp only
      rw [hno _ (by rw [hpix, h1, hbp]; simp [prod])]
      exact ⟨_, rfl⟩
    · simp only [if_neg h1]
      unfold multiBand
      simp only [htake]
      by_cases hs : p.bst = some c!"LINE_INTERLEAVED"
      · have hbil : bilLinefix ((Arr.ofList avail).map conv) p =
            .ok ((Arr.ofList avail).map conv, none, none) := by
          unfold bilLinefix; rw [if_pos hl]
        rw [if_pos hs, hbil]
        simp only
        rw [hno _ (by rw [hpix]; simp [prod]; ring)]
        exact ⟨_, rfl⟩
      · rw [if_neg hs]
        by_cases hs2 : p.bst = some c!"SAMPLE_INTERLEAVED"
        · rw [if_pos hs2, hno _ (by rw [hpix]; simp [prod]; ring)]
          exact ⟨_, rfl⟩
        · rw [if_neg hs2, hno _ (by rw [hpix]; simp [prod]; ring)]
          exact ⟨_, rfl⟩

theorem linefixOne_ok (bpp : Nat) (o r : Option Nat) (h : linefixOne bpp o = .ok r) :
    r.getD 0 * bpp = o.getD 0 ∧ r ≠ some 0 := by
  unfold linefixOne at h
  split at h
  · cases h; simp
  · cases h; simp
  · rename_i n hn
    unfold wholePixels at h
    split at h
    · cases h
    · rename_i e k he
      cases h
      split at he
      · cases he
      · split at he
        · cases he
        · rename_i hm
          cases he
          have hm' : n % bpp = 0 := by omega
          have := Nat.div_add_mod n bpp
          refine ⟨?_, ?_⟩
          · simp only [Option.getD_some]
            rw [Nat.mul_comm]; omega
          · intro h0
            simp only [Option.some.injEq] at h0
            rw [h0] at this
            simp [hm'] at this
            exact hn this.symm

/-- **C11 (labels of images).** What the reader takes from an image definition: rows, columns, bands and
storage type are the declared ones (one band if none are declared), no side planes, and as many prefix
and suffix elements per line as their declared bytes hold. -/
theorem C11_image_label (b : ImageBlock) (p : Props) (h : imageProps b = .ok p) :
    p.nrows = b.lines ∧ p.ncols = b.lineSamples ∧ p.nbands = b.bands.getD 1 ∧
    p.bst = (if b.bands = none then none else b.bst) ∧ NoPlanes p ∧
    p.linePrefixPix.getD 0 * (b.sampleBits / 8) = b.linePrefixBytes.getD 0 ∧
    p.lineSuffixPix.getD 0 * (b.sampleBits / 8) = b.lineSuffixBytes.getD 0 ∧
    p.linepad = p.linePrefixPix.getD 0 + p.lineSuffixPix.getD 0 ∧
    (1 < p.nbands → b.bst ≠ none) ∧ p.linePrefixPix ≠ some 0 ∧ p.lineSuffixPix ≠ some 0 := by
  have hone := @linefixOne_ok
  unfold imageProps linefixMeta at h
  simp only at h
  split at h
  · cases h
  · rename_i p0 hp0
    split at h
    · cases h
    · rename_i pre hpre
      split at h
      · cases h
      · rename_i suf hsuf
        cases h
        obtain ⟨a1, a2⟩ := hone _ _ _ hpre
        obtain ⟨b1, b2⟩ := hone _ _ _ hsuf
        cases hb : b.bands with
        | none =>
          rw [hb] at hp0; cases hp0
          simp [NoPlanes, a1, a2, b1, b2]
        | some n =>
          rw [hb] at hp0
          simp only at hp0
          split at hp0
          · cases hp0
          · rename_i hc
            cases hp0
            simp only [NoPlanes, a1, b1]
            simp
            exact ⟨fun hn hbst => hc ⟨hbst, hn⟩, a2, b2⟩

theorem idxOf_of_first {names : List Axis} {ax : Axis} {i : Nat} (h : names[i]? = some ax)
    (h' : ∀ j : Nat, j < i → names[j]? ≠ some ax) : names.idxOf ax = i := by
  induction names generalizing i with
  | nil => simp at h
  | cons a as ih =>
    cases i with
    | zero => simp at h; subst h; simp
    | succ i =>
      have h0 := h' 0 (by omega)
      simp only [List.getElem?_cons_zero, ne_eq, Option.some.injEq] at h0
      have hi := ih (i := i) (by simpa using h) (fun j hj => by simpa using h' (j + 1) (by omega))
      rw [List.idxOf_cons, beq_false_of_ne h0, hi]
      rfl

theorem axplaneCount_of_planes {b : QubeBlock} {names : List Axis} (hnm : b.axisName = some names)
    (hib : 0 < b.itemBytes) {ax : Axis} {sfx : Bool} {n : Nat} (h : Planes b names ax sfx n) :
    ∃ c, axplaneCount b ax sfx = .ok c ∧ c.getD 0 = n ∧ (c ≠ none → b.itemBytesOf ax sfx ≠ none) := by
  have hwhole : ∀ m, m = n * b.itemBytes → wholePixels m b.itemBytes = .ok n := by
    intro m hm
    unfold wholePixels
    rw [if_neg (by omega), hm, if_neg (by simp), Nat.mul_div_cancel _ hib]
  unfold Planes at h
  unfold axplaneCount
  cases hk : b.itemBytesOf ax sfx with
  | none =>
    rw [hk] at h
    exact ⟨none, rfl, by simp [h], fun h => absurd rfl h⟩
  | some ib =>
    rw [hk] at h
    cases ib with
    | one k =>
      obtain ⟨items, c, i, h1, h2, h2', h3, h4⟩ := h
      have hmem : ax ∈ names := List.mem_of_getElem? h2
      have hidx := idxOf_of_first h2 h2'
      refine ⟨some n, ?_, rfl, fun _ => by simp⟩
      simp only [h1, hnm, if_pos hmem, hidx, h3, hwhole _ h4]
    | many ks =>
      obtain ⟨⟨items, h1⟩, ⟨k, h2⟩, h3⟩ := h
      refine ⟨some n, ?_, rfl, fun _ => by simp⟩
      have hany : ks.any (fun x => ks.any (fun y => decide (x ≠ y))) = false := by
        simp only [List.any_eq_false]
        intro x hx
        simp only [Bool.not_eq_true, List.any_eq_false]
        intro y hy
        simp [h2 x hx, h2 y hy]
      simp only [h1, hnm, hany, Bool.false_eq_true, if_false, hwhole _ h3]

/-- **C11 (qubes).** For a qube whose axis order is given by AXIS_NAME (in the three orders the reader
knows), whose first listed axis varies fastest, with side planes before and after the core on one axis:
element `[band][line][sample]` of the image is the file's element at the position that the axis order
gives, and the image has the size of the core. -/
theorem C11_qube_pixels {α : Type} (conv : α → α) (avail : List α) (b : QubeBlock) (names : List Axis)
    (core : Axis → Nat) (before after : Axis → Nat)
    (hnm : b.axisName = some names) (hbst : b.bst = none)
    (hknown : names = [.sample, .line, .band] ∨ names = [.band, .sample, .line] ∨ names = [.sample, .band, .line])
    (hcore : b.coreItems = names.map core) (hib : 0 < b.itemBytes)
    (hlf : b.linePrefixBytes = none ∧ b.lineSuffixBytes = none)
    (hbef : ∀ ax, Planes b names ax false (before ax)) (haft : ∀ ax, Planes b names ax true (after ax))
    (hnz : ∀ ax, b.itemBytesOf ax true ≠ none → 0 < after ax)
    (hone : ∃ ax, ∀ ax', ax' ≠ ax → before ax' + after ax' = 0)
    (hbands : core .band ≠ 1)
    (hen : prod (names.map (fun ax => core ax + before ax + after ax)) ≤ avail.length) :
    ∃ p out, qubeProps b = .ok p ∧ readImage conv avail p = .ok out ∧
      out.image.shape = [core .band, core .line, core .sample] ∧
      ∀ ix : Axis → Nat, (∀ ax, ix ax < core ax) →
        ∃ x, avail[fastestFirst (names.map (fun ax => core ax + before ax + after ax))
              (names.map (fun ax => ix ax + before ax))]? = some x ∧
          out.image.get [ix .band, ix .line, ix .sample] = some (conv x) := by
  obtain ⟨pb, pb1, pb2, -⟩ := axplaneCount_of_planes hnm hib (hbef .band)
  obtain ⟨pl, pl1, pl2, -⟩ := axplaneCount_of_planes hnm hib (hbef .line)
  obtain ⟨ps, ps1, ps2, -⟩ := axplaneCount_of_planes hnm hib (hbef .sample)
  obtain ⟨sb, sb1, sb2, sb3⟩ := axplaneCount_of_planes hnm hib (haft .band)
  obtain ⟨sl, sl1, sl2, sl3⟩ := axplaneCount_of_planes hnm hib (haft .line)
  obtain ⟨ss, ss1, ss2, ss3⟩ := axplaneCount_of_planes hnm hib (haft .sample)
  have hz : ∀ ax (c : Option Nat), c.getD 0 = after ax → (c ≠ none → b.itemBytesOf ax true ≠ none) → c ≠ some 0 := by
    intro ax c h1 h2 h0
    have := hnz ax (h2 (by rw [h0]; simp))
    rw [h0] at h1
    simp at h1
    omega
  have hcount : ∀ ax, axisCount ax names b.coreItems = some (core ax) := by
    intro ax
    rw [hcore]
    rcases hknown with rfl | rfl | rfl <;> cases ax <;> rfl
  obtain ⟨bst, st, hord, hst, hpos⟩ : ∃ bst st, qubeOrder names = some bst ∧ StorageOf (some bst) st ∧
      ∀ i : Axis → Nat, ∀ N : Axis → Nat, fastestFirst (names.map N) (names.map i) =
        position st (N .band) (N .line) (N .sample) (i .band) (i .line) (i .sample) := by
    rcases hknown with rfl | rfl | rfl
    · exact ⟨_, .bandSequential, rfl, Or.inr (Or.inr ⟨by decide, by decide, rfl⟩), fun i N => by
        simp only [List.map, fastestFirst, position]; ring⟩
    · exact ⟨_, .sampleInterleaved, rfl, Or.inr (Or.inl ⟨rfl, rfl⟩), fun i N => by
        simp only [List.map, fastestFirst, position]; ring⟩
    · exact ⟨_, .lineInterleaved, rfl, Or.inl ⟨rfl, rfl⟩, fun i N => by
        simp only [List.map, fastestFirst, position]; ring⟩
  let p : Props := {
    nrows := core .line, ncols := core .sample, nbands := core .band, bst := some bst,
    prefixBands := pb, suffixBands := sb, prefixRows := pl, suffixRows := sl, prefixCols := ps, suffixCols := ss,
    bandpad := pb.getD 0 + sb.getD 0, rowpad := pl.getD 0 + sl.getD 0, colpad := ps.getD 0 + ss.getD 0 }
  have hq : qubeProps b = .ok p := by
    unfold qubeProps axplaneMeta
    simp only [hnm, hbst, hord, hcount, pb1, sb1, pl1, sl1, ps1, ss1, linefixMeta, hlf.1, hlf.2, linefixOne]
    rfl
  have hP : PlanesOk p := by
    refine ⟨rfl, rfl, rfl, rfl, ?_, hz .line sl sl2 sl3, hz .sample ss ss2 ss3, hz .band sb sb2 sb3⟩
    obtain ⟨ax, hax⟩ := hone
    show (pl.getD 0 + sl.getD 0 = 0 ∧ ps.getD 0 + ss.getD 0 = 0) ∨
      (pl.getD 0 + sl.getD 0 = 0 ∧ pb.getD 0 + sb.getD 0 = 0) ∨
      (ps.getD 0 + ss.getD 0 = 0 ∧ pb.getD 0 + sb.getD 0 = 0)
    rw [pl2, sl2, ps2, ss2, pb2, sb2]
    cases ax with
    | band => exact Or.inl ⟨hax .line (by decide), hax .sample (by decide)⟩
    | line => exact Or.inr (Or.inr ⟨hax .sample (by decide), hax .band (by decide)⟩)
    | sample => exact Or.inr (Or.inl ⟨hax .line (by decide), hax .band (by decide)⟩)
  have hpx : pixels p = prod (names.map (fun ax => core ax + before ax + after ax)) := by
    show (core .line + (pl.getD 0 + sl.getD 0)) * (core .sample + (ps.getD 0 + ss.getD 0) + 0) *
      (core .band + (pb.getD 0 + sb.getD 0)) = _
    rw [pl2, sl2, ps2, ss2, pb2, sb2]
    rcases hknown with rfl | rfl | rfl <;> simp only [List.map, prod] <;> ring
  obtain ⟨out, e1, e2, e3⟩ := C11_multiband_pixels conv avail p st hst hbands hP (by rw [hpx]; exact hen)
  refine ⟨p, out, hq, e1, e2, ?_⟩
  intro ix hix
  obtain ⟨x, x1, x2⟩ := e3 (ix .band) (ix .line) (ix .sample) (hix _) (hix _) (hix _)
  refine ⟨x, ?_, x2⟩
  rw [hpos, ← x1]
  show _ = avail[position st (core .band + (pb.getD 0 + sb.getD 0)) (core .line + (pl.getD 0 + sl.getD 0))
    (core .sample + (ps.getD 0 + ss.getD 0)) (ix .band + pb.getD 0) (ix .line + pl.getD 0) (ix .sample + ps.getD 0)]?
  rw [pl2, sl2, ps2, ss2, pb2, sb2]
  simp only [Nat.add_assoc]

/-- a 2 x 3 x 4 qube (samples, lines, bands) with one back plane per band group -/
def exampleQube : QubeBlock where
  itemBytes := 2
  coreItems := [2, 3, 4]
  axisName := some [.sample, .line, .band]
  suffixItems := some [0, 0, 1]
  itemBytesOf := fun ax sfx => if ax = .band ∧ sfx = true then some (.one 2) else none

example : (∀ ax, Planes exampleQube [.sample, .line, .band] ax false 0) ∧
    (∀ ax, Planes exampleQube [.sample, .line, .band] ax true (if ax = .band then 1 else 0)) := by
  refine ⟨fun ax => by cases ax <;> rfl, fun ax => ?_⟩
  cases ax
  · refine ⟨[0, 0, 1], 1, 2, rfl, rfl, ?_, rfl, rfl⟩
    intro j hj
    match j, hj with
    | 0, _ => decide
    | 1, _ => decide
  · rfl
  · rfl

/-- **C40 (limit).** A qube whose label gives no AXIS_NAME is never read: KeyError, whatever else it
declares. -/
theorem C40_qube_without_axis_names (b : QubeBlock) (h : b.axisName = none) :
    qubeProps b = .error .keyError := by
  unfold qubeProps; rw [h]

end Verif.Image
