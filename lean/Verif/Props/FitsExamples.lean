/-
Examples: FITS files that meet the hypotheses of C84 and C85.
-/
import Verif.Props.FitsMore

namespace Verif.Fits
open Verif.Py Verif.Fits.Spec Verif.Load

/-- a stub, two images of the same name with a table between them -/
def exampleFile : File Nat where
  hdus := [
    { name := c!"PRIMARY"
      cards := [.good c!"SIMPLE" (.bool true) c!"conforms", .good [] .undefined c!"", .good c!"NAXIS" (.int 0) []]
      body := none
      hdrLoc := 0
      datLoc := 2880 },
    { name := c!"SCI"
      cards := [.good c!"BITPIX" (.int 16) c!"bits", .good c!"HISTORY" (.text c!"a") [], .good c!"HISTORY" (.text c!"b") [],
        .good c!"EMPTY" .undefined []]
      body := some 7
      hdrLoc := 2880
      datLoc := 5760 },
    { name := c!"TAB"
      cards := []
      body := some 8
      hdrLoc := 8640
      datLoc := 11520 },
    { name := c!"SCI"
      cards := [.good c!"BITPIX" (.other c!"(1+2j)") []]
      body := some 9
      hdrLoc := 14400
      datLoc := 17280 }]

/-- how it is listed -/
example : (openPrimary exampleFile).map (·.index) = some [c!"PRIMARY", c!"SCI_0", c!"SCI_1", c!"TAB"] := by decide

example : Clean (names exampleFile) := (C84_clean _).1 (by
  intro x hx
  simp only [names, exampleFile, List.map_cons, List.map_nil, List.mem_cons, List.not_mem_nil, or_false] at hx
  rcases hx with rfl | rfl | rfl | rfl <;>
    exact ⟨by rw [← Datatypes.contains_iff]; decide, by intro c hc; cases hc; decide⟩)

example : ListedAs (names exampleFile) 3 c!"SCI_1" := ⟨c!"SCI", rfl, .inr (by decide)⟩
example : ListedAs (names exampleFile) 0 c!"PRIMARY" := ⟨c!"PRIMARY", rfl, .inl (by decide)⟩

/-- SCI_1 comes before TAB, which is before it in the file -/
example : Before (names exampleFile) 3 2 := ⟨c!"SCI", c!"TAB", rfl, rfl, .inl (by decide)⟩

/-- a header -/
example : header [.good c!"SIMPLE" (.bool true) c!"conforms", .good [] .undefined c!"", .good c!"EMPTY" .undefined [], .bad] =
    [(c!"SIMPLE", .bool true), (c!"SIMPLE_comment", .text c!"conforms"), (c!"EMPTY", .none)] := by decide

example : (header (exampleFile.hdus[1]).cards |>.filter (fun q => q.1 = c!"HISTORY")).map (·.2) = [.text c!"a", .text c!"b"] := by decide

example : Placed exampleFile := by
  refine ⟨?_, ?_⟩
  · simp [exampleFile]
  · simp [exampleFile]

/-- the stub's data would begin where the next header does: it is found -/
example : lastOf (byteIndex exampleFile) 2880 = some (1, true) := by decide
example : lastOf (byteIndex exampleFile) 5760 = some (1, false) := by decide
example : lastOf (byteIndex exampleFile) 1 = none := by decide

/-- a PDS4 label with a header that ends at 5760 -/
example : headerId [⟨c!"A", false, 0, some 5760, none⟩, ⟨c!"H", true, 2880, some 2880, some c!"Sci Header"⟩] 5760 = some c!"Sci_Header" := by
  decide

/-- two HDUs called A and one called A_0 -/
example : hduMap [c!"A", c!"A", c!"A_0"] = [(c!"A_0", 0), (c!"A_1", 1), (c!"A_0", 2)] := by decide
example : ListedAs [c!"A", c!"A", c!"A_0"] 0 c!"A_0" ∧ ListedAs [c!"A", c!"A", c!"A_0"] 2 c!"A_0" :=
  ⟨⟨c!"A", rfl, .inr (by decide)⟩, ⟨c!"A_0", rfl, .inl (by decide)⟩⟩

/-- two HDUs called IMAGE HEADER -/
example : ListedAs [c!"IMAGE HEADER", c!"IMAGE HEADER"] 1 c!"IMAGE HEADER_1" ∧ c!"HEADER" <:+: c!"IMAGE HEADER_1" ∧
    c!"IMAGE HEADER_1" ∉ [c!"IMAGE HEADER", c!"IMAGE HEADER"] :=
  ⟨⟨c!"IMAGE HEADER", rfl, .inr (by decide)⟩, by rw [← Datatypes.contains_iff]; decide, by decide⟩

/-- A and A_HEADER -/
example : ListedAs [c!"A", c!"A_HEADER"] 1 (c!"A" ++ c!"_HEADER") := ⟨c!"A_HEADER", rfl, .inl (by decide)⟩

end Verif.Fits
