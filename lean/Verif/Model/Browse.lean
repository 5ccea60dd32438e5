/-
Model of `pdr/browsify.py`: which bands of an array become a browse image, and what becomes of the values.
-/
import Verif.Model.Float
import Verif.Model.NumPy
import Mathlib.Data.Rat.Floor

namespace Verif.Browse
open Verif.Py Verif.Float Verif.NumPy

/-! ### which bands -/

/-- `round(x)` / `np.round`: to the nearest integer, halves to the even one -/
def roundEven (x : ℚ) : Int :=
  if x - ⌊x⌋ < 1 / 2 then ⌊x⌋
  else if 1 / 2 < x - ⌊x⌋ then ⌊x⌋ + 1
  else if ⌊x⌋ % 2 = 0 then ⌊x⌋ else ⌊x⌋ + 1

/-- the argument `band_ix` -/
inductive BandIx
  | none
  | burst
  | int (i : Int)
  | other                                          -- any other text: `obj["..."]` is an IndexError

/-- what is shown -/
inductive Selection
  | single (k : Nat)
  | rgb (r g b : Nat)
  | burst (ks : List Nat)
deriving DecidableEq

/-- `obj[i]` of an array with `n` bands: the band it is, or an IndexError -/
def pyIndex (n : Nat) (i : Int) : Except PyErr Nat :=
  if 0 ≤ i ∧ i < n then .ok i.toNat
  else if -(n : Int) ≤ i ∧ i < 0 then .ok (i + n).toNat
  else .error .indexError

/-- browsify.py 362-379 `_format_as_single_band` -/
def singleBand (n : Nat) (bandIx : BandIx) : Except PyErr Selection :=
  let middle := roundEven ((n : ℚ) / 2)
  match bandIx with
  | .int i =>
    match pyIndex n i with
    | .ok k => .ok (.single k)
    | .error _ => (pyIndex n middle).map .single
  | _ => (pyIndex n middle).map .single

/-- browsify.py 309-327 `_format_as_rgb` with `rgb_channels` -/
def rgbBands (n : Nat) (r g b : Int) : Except PyErr Selection := do
  let r' ← pyIndex n r
  let g' ← pyIndex n g
  let b' ← pyIndex n b
  .ok (.rgb r' g' b')

/-- browsify.py 330-359 `_format_multiband_image`, for an array with `n` bands along the chosen axis -/
def selectBands (n : Nat) (bandIx : BandIx) (overrideRgba : Bool) (rgbChannels : Option (Int × Int × Int)) :
    Except PyErr Selection :=
  match rgbChannels with
  | some c => rgbBands n c.1 c.2.1 c.2.2
  | none =>
    if ¬ (n = 3 ∨ n = 4) ∨ overrideRgba then
      match bandIx with
      | .burst => .ok (.burst (List.range n))
      | b => singleBand n b
    else .ok (.rgb 0 1 2)

/-- the shape of a three-dimensional array after `swapaxes(0, axis)`, and where its elements come from -/
def swapShape (axis : Nat) (a b c : Nat) : Nat × Nat × Nat :=
  if axis = 1 then (b, a, c) else if axis = 2 then (c, b, a) else (a, b, c)

/-- `obj.swapaxes(0, axis)[k]`, as a function of line and sample -/
def sliceAt {α : Type} (axis : Nat) (obj : Nat → Nat → Nat → α) (k : Nat) : Nat → Nat → α :=
  fun i j => if axis = 1 then obj i k j else if axis = 2 then obj j i k else obj k i j

/-! ### values -/

/-- the elements that are not masked -/
def valid {α : Type} (px : List (α × Bool)) : List α := (px.filter (fun e => !e.2)).map (·.1)

/-- browsify.py 18-61 `find_masked_bounds` and `find_unmasked_bounds`; `pct` is `np.percentile` followed by the cast to
the dtype of the image (not modelled further) -/
def boundsOf {α : Type} [Min α] [Max α] (pct : List α → ℚ → α) (low high : ℚ) : List α → Option (α × α)
  | [] => none
  | x :: xs =>
    some (if low ≠ 0 then pct (x :: xs) low else xs.foldl min x,
      if high ≠ 0 then pct (x :: xs) (100 - high) else xs.foldl max x)

/-- `np.clip` -/
def clip {α : Type} [Min α] [Max α] (mn mx x : α) : α := min (max x mn) mx

/-- `np.round(y).astype(np.uint8)`. Simplification: numbers outside 0 to 255 keep their low bits (for floats that is not
specified) -/
def toByte (y : ℚ) : Int := wrap uint8 (roundEven y)

/-- browsify.py 110-114 with bounds (0, 255) for floats. Overflow to infinity is not modelled (the theorems exclude it) -/
def scaleFloat {F : Format} (R : Rounding F) (mn mx x : ℚ) : ℚ :=
  R.fl (R.fl (R.fl (clip mn mx x - mn) * R.fl (255 / R.fl (mx - mn))) + 0)

/-- browsify.py 97-109 for floats, in place -/
def scaleFloatInplace {F : Format} (R : Rounding F) (mn mx x : ℚ) : ℚ :=
  R.fl (R.fl (R.fl (R.fl (clip mn mx x - mn) * 255) / R.fl (mx - mn)) + 0)

/-- browsify.py 110-114 for integers: the differences are taken in the dtype of the array, the rest in float64 -/
def scaleInt (R : Rounding double) (t : IntType) (mn mx x : Int) : ℚ :=
  R.fl (R.fl (R.fl (wrap t (clip mn mx x - mn) : Int) * R.fl (255 / R.fl (wrap t (mx - mn) : Int))) + 0)

/-- browsify.py 97-109 for integers, in place: everything in the dtype of the array -/
def scaleIntInplace (t : IntType) (mn mx x : Int) : Int :=
  wrap t (wrap t (wrap t (clip mn mx x - mn) * 255) / wrap t (mx - mn))

/-- browsify.py 66-133 `normalize_range` and `eightbit`: `masked` tells whether the image is a masked array, `nice` is
`nice_clip`. If both bounds are equal and `nice` is false, the code divides by zero; this is not modelled. -/
def eightbit {α : Type} [Min α] [Max α] [DecidableEq α] (pct : List α → ℚ → α) (byte : α → Int) (scale : α → α → α → Int)
    (masked : Bool) (low high : ℚ) (nice : Bool) (px : List (α × Bool)) : Except PyErr (List (Int × Bool)) :=
  match boundsOf pct low high (valid px) with
  | none => if masked then .ok (px.map fun e => (byte e.1, e.2)) else .error .valueError
  | some (mn, mx) =>
    if mn = mx then
      if nice then .ok (px.map fun e => (byte e.1, e.2)) else .error .zeroDivision
    else .ok (px.map fun e => (scale mn mx e.1, e.2))

/-- float arrays -/
def eightbitFloat {F : Format} (R : Rounding F) (pct : List ℚ → ℚ → ℚ) (inplace : Bool) :
    Bool → ℚ → ℚ → Bool → List (ℚ × Bool) → Except PyErr (List (Int × Bool)) :=
  eightbit pct toByte (fun mn mx x => toByte (if inplace then scaleFloatInplace R mn mx x else scaleFloat R mn mx x))

/-- integer arrays, brought to int32 if they have 8 or 16 bits (280-281) -/
def eightbitInt (R : Rounding double) (pct : List Int → ℚ → Int) (inplace : Bool) (t : IntType) :
    Bool → ℚ → ℚ → Bool → List (Int × Bool) → Except PyErr (List (Int × Bool)) :=
  let t' := if t.bits ≤ 16 then int32 else t
  eightbit pct (wrap uint8)
    (fun mn mx x => if inplace then wrap uint8 (scaleIntInplace t' mn mx x) else toByte (scaleInt R t' mn mx x))

/-- browsify.py 136-154 `colorfill_maskedarray`: channel `ch` of an element -/
def colorfill (color : Nat → Int) (ch : Nat) (e : Int × Bool) : Int := if e.2 then color ch else e.1

/-- browsify.py 287-289 in `_render_array`, for an image of one band: the pixels. A masked array is filled if there is a
color; otherwise the values below the mask show. -/
def pixels (masked : Bool) (color : Option (Nat → Int)) (px : List (Int × Bool)) : List (List Int) :=
  match masked, color with
  | true, some c => px.map fun e => (List.range 3).map fun ch => colorfill c ch e
  | _, _ => px.map fun e => [e.1]

/-! ### size -/

/-- browsify.py 296-300: the scale for an image with longest axis `m`: 1 / n for the first n = 1, 2, … -/
def downscale (R : Rounding double) (m : Nat) : Option Nat :=
  ((List.range m).map (· + 1)).find? fun n => decide (R.fl (m * R.fl (1 / (n : ℚ))) ≤ 65500)

/-- browsify.py 295-305: the size asked for. `axes`: the lengths of the axes of the array, of which `size` has those of
the image. -/
def browseSize (R : Rounding double) (axes size : List Nat) : Option (List Int) :=
  let m := axes.foldl max 0
  if 65500 < m then
    (downscale R m).map fun n : Nat => size.map fun a : Nat => ⌊R.fl ((a : ℚ) * R.fl (1 / (n : ℚ)))⌋
  else some (size.map fun a : Nat => (a : Int))

end Verif.Browse
