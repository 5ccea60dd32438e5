/-
Specification of opening products: what file names say.
-/
import Verif.Model.Open
import Verif.Spec.Files

namespace Verif.Open.Spec
open Verif.Py

/-- the name of a FITS file -/
def FitsName (n : Str) : Prop :=
  ∃ x ∈ [c!".fits", c!".fit", c!".fits.gz", c!".fit.gz", c!".fz"], x <:+ lower n

/-- a name with the suffix of a picture, at its end or before other suffixes -/
def PictureName (n : Str) : Prop :=
  ∃ x ∈ [c!".bmp", c!".tif", c!".tiff", c!".jp2", c!".jpf", c!".jpc", c!".jpx", c!".jpg", c!".jpeg", c!".gif", c!".png", c!".webp"],
    ∃ a b, lower n = a ++ x ++ b ∧ (b = [] ∨ ∃ c, b = '.' :: c)

/-- the formats of pictures that are read -/
def PictureFormat (f : Str) : Prop :=
  f ∈ [c!"JPEG2000", c!"JPEG", c!"MPO", c!"WEBP", c!"PNG", c!"TIFF", c!"GIF", c!"BMP"]

/-- the name of a PDS4 label: .xml or .lblx in small letters; or a Chang'e label -/
def Pds4Name (dir n : Str) : Prop :=
  c!".xml" <:+ n ∨ c!".lblx" <:+ n ∨
    (c!"CE" <:+: dir ++ '/' :: n ∧ ∃ x ∈ [c!".2BL", c!".2AL", c!".2CL", c!".01L"], x <:+ n)

/-- the name of a label, in any letter case -/
def LabelName (dir n : Str) : Prop :=
  (∃ x ∈ [c!".xml", c!".lbl", c!".lblx"], x <:+ lower n) ∨
    ((∃ x ∈ [c!"ce1", c!"ce2", c!"ce3", c!"ce4", c!"ce5", c!"ce6"], x <:+: lower (dir ++ '/' :: n)) ∧
      ∃ x ∈ [c!".2bl", c!".2al", c!".2cl", c!".01l", c!".3bl", c!".3al", c!".3cl"], x <:+ lower n)

end Verif.Open.Spec
