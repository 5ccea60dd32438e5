/-
Examples: file systems that meet the hypotheses of C86 and C87.
-/
import Verif.Props.Open

namespace Verif.Open
open Verif.Py Verif.Files Verif.Files.Spec Verif.Open.Spec

/-- one directory -/
def exampleWorld (files : List Str) : World Unit where
  fs := { listing := fun _ => some files }
  dirText := fun _ => c!"/data"
  pil := fun _ => .unidentified

/-- an image with labels of all three kinds beside it -/
example : openProduct (exampleWorld [c!"a.img", c!"a.lbl", c!"a.xml"]) (some c!"a.img") ((), c!"a.img") none false =
    .ok { file := ((), c!"a.img"), label := some ((), c!"a.xml"), standard := .pds4 } := by
  refine C86_beside (exampleWorld [c!"a.img", c!"a.lbl", c!"a.xml"]) _ () c!"a" c!"img" false ?_ (by decide) (by decide) (by decide) (by decide)
    (by decide) ?_ [] [c!".lbl", c!".lblx"] c!".xml" rfl (by simp) (by decide) ?_ (fun _ => rfl)
  · rintro s hs; cases hs; decide
  · have h := labelName_iff (exampleWorld [c!"a.img", c!"a.lbl", c!"a.xml"]) ((), c!"a.img")
    have h2 : isLabelName (text (exampleWorld [c!"a.img", c!"a.lbl", c!"a.xml"]) ((), c!"a.img")) = false := by decide
    rw [h2] at h
    simpa using h
  · rw [← Datatypes.contains_iff]; decide

/-- how some products are opened: file, label, standard -/
def shown (r : Except PyErr (Opened Unit)) : Option (Str × Option Str × Standard) :=
  match r with
  | .ok o => some (o.file.2, o.label.map (·.2), o.standard)
  | .error _ => none

example : shown (openProduct (exampleWorld [c!"a.img", c!"a.lbl"]) none ((), c!"A.IMG") none false) =
    some (c!"a.img", some c!"a.lbl", .pds3) := by decide
example : shown (openProduct (exampleWorld [c!"x.fits.gz"]) none ((), c!"X.FITS") none false) = some (c!"x.fits.gz", none, .fits) := by decide
example : shown (openProduct (exampleWorld [c!"x.fits.bz2"]) none ((), c!"X.FITS") none false) = some (c!"x.fits.bz2", none, .pds3) := by decide
/-- a PDS4 label in capital letters is found, but the product is not PDS4 -/
example : shown (openProduct (exampleWorld [c!"A.IMG", c!"A.XML"]) none ((), c!"A.IMG") none false) = some (c!"A.IMG", some c!"A.XML", .pds3) := by
  decide
/-- Chang'e labels -/
example : shown (openProduct (exampleWorld [c!"CE5_1.2BL"]) none ((), c!"CE5_1.2BL") none false) =
    some (c!"CE5_1.2BL", some c!"CE5_1.2BL", .pds4) := by decide
example : shown (openProduct (exampleWorld [c!"CE5_1.3BL"]) none ((), c!"CE5_1.3BL") none false) =
    some (c!"CE5_1.3BL", some c!"CE5_1.3BL", .pds3) := by decide

/-- pictures -/
example : PictureName c!"a.JPG" ∧ PictureName c!"a.tif.gz" ∧ ¬ PictureName c!"a.jpgs" := by
  refine ⟨⟨c!".jpg", by simp, c!"a", [], rfl, .inl rfl⟩, ⟨c!".tif", by simp, c!"a", c!".gz", rfl, .inr ⟨c!"gz", rfl⟩⟩, ?_⟩
  rw [← picture_iff c!"a.jpgs" ⟨by decide, by decide, by decide⟩]
  decide

/-- the file of an object, in the second search path -/
example : targetPath (D := Nat) { listing := fun d => some (if d = 1 then [c!"TAB.DAT"] else []) } [0, 1] (0, c!"a.lbl")
    { pointer := .seq [.text c!"tab.dat", .other] } none = .ok (some (1, c!"TAB.DAT"), some (1, c!"TAB.DAT")) := rfl

/-- compressed and uncompressed names -/
example : targetPath (D := Unit) { listing := fun _ => some [c!"a.z"] } [()] ((), c!"a.lbl")
    { comp := some [[c!"a.img"], [c!"a.z"]] } none = .ok (some ((), c!"a.z"), some ((), c!"a.z")) := rfl

end Verif.Open
