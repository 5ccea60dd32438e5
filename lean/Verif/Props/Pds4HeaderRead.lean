/-
C130, C131: headers of PDS4 products, from the XML of the label to the bytes.
-/
import Verif.Props.Pds4TableRead

namespace Verif.Pds4Read
open Verif.Py Verif.Pvl Verif.Xml.Spec Verif.Objects.Spec Verif.Pds4Read.Spec

theorem read_header_eq (M : Machine) (dir filename : Str) (root : Doc) (ds : List Described) (h : Valid root ds)
    (files : Str → Option Bytes) (before : List Described) (d : Described) (rest : List Described) (hds : ds = before ++ d :: rest)
    (area x : Doc) (hx : (structuresIn root)[before.length]? = some (area, x)) (hk : d.kind = .header)
    (hl : nameOf before d ≠ c!"label") (hr : ∀ mid e last, rest = mid ++ e :: last → nameOf (before ++ d :: mid) e ≠ nameOf before d)
    (ho : Ordinary filename (nameOf before d)) (path : Str) (hp : Located dir d.file path) (hf : ¬ FitsName path)
    (offset length : Nat) (hd : HeaderDoc x offset length) :
    read M dir filename (etree root) files (nameOf before d) = some (match files path with
      | none => .error .ioError
      | some file => .ok (.header (bytesBetween file offset (offset + length)))) := by
  have hn := structure_at h hx
  rw [read_eq M dir filename h files hds hx hl hr ho hp hf, hk]
  simp only
  unfold loadHeader
  rw [natOf_field M.floats hn hd.offset (by decide), natOf_field M.floats hn hd.length (by decide)]
  cases files path <;> rfl

/-! ### C130 -/

/-- **C130.** For every valid label, a header whose name no later structure has, that the label places at `offset` with `length` bytes, is
read as the bytes of the file of its file area that are there: all `length` of them if the file has them, and what there is of them if it
is shorter. -/
theorem C130_header (M : Machine) (dir filename : Str) (root : Doc) (ds : List Described) (h : Valid root ds)
    (files : Str → Option Bytes) (before : List Described) (d : Described) (rest : List Described) (hds : ds = before ++ d :: rest)
    (area x : Doc) (hx : (structuresIn root)[before.length]? = some (area, x)) (hk : d.kind = .header)
    (hl : nameOf before d ≠ c!"label") (hr : ∀ mid e last, rest = mid ++ e :: last → nameOf (before ++ d :: mid) e ≠ nameOf before d)
    (ho : Ordinary filename (nameOf before d)) (path : Str) (hp : Located dir d.file path) (hf : ¬ FitsName path)
    (offset length : Nat) (hd : HeaderDoc x offset length) (hpos : 0 < offset + length)
    (file : Bytes) (hfile : files path = some file) :
    ∃ b : Bytes, read M dir filename (etree root) files (nameOf before d) = some (.ok (.header b)) ∧
      (∀ i < length, b[i]? = file[offset + i]?) ∧ b.length ≤ length ∧ (offset + length ≤ file.length → b.length = length) := by
  refine ⟨_, read_header_eq M dir filename root ds h files before d rest hds area x hx hk hl hr ho path hp hf offset length hd |>.trans
    (by rw [hfile]), ?_, ?_, ?_⟩
  · intro i hi
    rw [bytesBetween, if_pos hpos, List.getElem?_take, if_pos (by omega), List.getElem?_drop]
  · rw [bytesBetween, if_pos hpos, List.length_take]
    omega
  · intro hlen
    rw [bytesBetween, if_pos hpos, List.length_take, List.length_drop]
    omega

/-! ### C131 -/

/-- **C131 (no bytes at the beginning).** A header of no bytes at the beginning of its file is read as the whole file. -/
theorem C131_empty (M : Machine) (dir filename : Str) (root : Doc) (ds : List Described) (h : Valid root ds)
    (files : Str → Option Bytes) (before : List Described) (d : Described) (rest : List Described) (hds : ds = before ++ d :: rest)
    (area x : Doc) (hx : (structuresIn root)[before.length]? = some (area, x)) (hk : d.kind = .header)
    (hl : nameOf before d ≠ c!"label") (hr : ∀ mid e last, rest = mid ++ e :: last → nameOf (before ++ d :: mid) e ≠ nameOf before d)
    (ho : Ordinary filename (nameOf before d)) (path : Str) (hp : Located dir d.file path) (hf : ¬ FitsName path)
    (hd : HeaderDoc x 0 0) (file : Bytes) (hfile : files path = some file) :
    read M dir filename (etree root) files (nameOf before d) = some (.ok (.header file)) := by
  rw [read_header_eq M dir filename root ds h files before d rest hds area x hx hk hl hr ho path hp hf 0 0 hd, hfile]
  rfl

/-- **C131 (an incomplete header).** If one header of the label has no `offset`, `object_length` or `parsing_standard_id`, nothing of the
product can be read, whatever else is in the label. -/
theorem C131_missing (M : Machine) (dir filename : Str) (root : Doc) (files : Str → Option Bytes) (name : Str)
    (h : ∀ e ∈ elements root, NamedAs e) (a x : Doc) (hx : (a, x) ∈ structuresIn root) (hk : HasKind (tag x) .header) (hc : Container x)
    (hno : named c!"offset" x = [] ∨ named c!"object_length" x = [] ∨ named c!"parsing_standard_id" x = []) :
    ∃ e, read M dir filename (etree root) files name = some (.error e) := by
  refine read_error M dir filename _ files name (open_error_structure M dir h hx hk hc ?_)
  simp only [check]
  unfold checkHeader
  rw [if_neg]
  · exact ⟨_, rfl⟩
  · rw [hasKeys_iff M.floats (structure_named h hx)]
    intro hall
    rcases hno with hno | hno | hno
    · exact hall c!"offset" (by simp) hno
    · exact hall c!"object_length" (by simp) hno
    · exact hall c!"parsing_standard_id" (by simp) hno

/-! ### examples -/

theorem demo_header : HeaderDoc demoHeader 0 2 where
  offset := ⟨tx c!"offset" c!"0", by simp [named, demoHeader, kids_el, tag_tx],
    digit_says _ _ _ (.inl ⟨by decide, by decide⟩) (by decide) (by decide) (by decide)⟩
  length := ⟨tx c!"object_length" c!"2", by simp [named, demoHeader, kids_el, tag_tx],
    digit_says _ _ _ (.inl ⟨by decide, by decide⟩) (by decide) (by decide) (by decide)⟩

/-- the hypotheses of `C130_header` are met: `data["HEADER_0"]` is the first two bytes -/
example : ∃ b : Bytes, read demoMachine c!"/x" c!"/x/label.xml" (etree demoRoot)
      (fun p => if p = c!"/x/image.dat" then some [5, 6, 7, 8] else none) (nameOf [] demoDs[0]) = some (.ok (.header b)) ∧
    b[0]? = some 5 ∧ b[1]? = some 6 ∧ b.length = 2 := by
  obtain ⟨b, h1, h2, h3, h4⟩ := C130_header demoMachine c!"/x" c!"/x/label.xml" demoRoot demoDs demo_valid
    (fun p => if p = c!"/x/image.dat" then some [5, 6, 7, 8] else none) [] demoDs[0] [demoDs[1]] rfl demoArea demoHeader
    (by rw [demo_structures]; rfl) rfl (by decide)
    (by
      intro mid e last h
      cases mid with
      | nil => cases h; decide
      | cons y ys => cases ys <;> cases h)
    ⟨by decide, by decide⟩ c!"/x/image.dat" ⟨by decide, by decide, by decide⟩
    (by
      rintro ⟨ext, h1, h2⟩
      simp only [List.mem_cons, List.not_mem_nil, or_false] at h1
      rcases h1 with rfl | rfl | rfl | rfl | rfl <;> revert h2 <;> decide) 0 2 demo_header (by decide) [5, 6, 7, 8] (by decide)
  exact ⟨b, h1, (h2 0 (by decide)).trans rfl, (h2 1 (by decide)).trans rfl, h4 (by decide)⟩

/-- a header without the name of its format: nothing can be read -/
example : ∃ e, read demoMachine c!"/x" c!"/x/label.xml" (etree (rootWith (el c!"Header" [tx c!"offset" c!"0", tx c!"object_length" c!"1"])))
    (fun _ => some [49]) c!"label" = some (.error e) := by
  have hk : HasKind (tag (el c!"Header" [tx c!"offset" c!"0", tx c!"object_length" c!"1"])) .header := by
    rw [tag_el]; exact Objects.hasKind_of (by decide)
  refine C131_missing demoMachine _ _ _ _ _ (named_el _ _ (by decide) (named_el _ _ (by decide) ⟨named_el _ _ (by decide) (named_tx _ _ (by decide)),
    named_el _ _ (by decide) ⟨named_tx _ _ (by decide), named_tx _ _ (by decide)⟩⟩)) _ _
    (by rw [rootWith, (table_structures ⟨_, hk⟩).2]; exact List.mem_cons_self) hk (container_el _ _ (by simp)) (.inr (.inr ?_))
  simp [named, kids_el, tag_tx]

/-- a header of no bytes -/
def emptyHeader : Doc := el c!"Header" [tx c!"offset" c!"0", tx c!"object_length" c!"0", tx c!"parsing_standard_id" c!"FITS 3.0"]

/-- the hypotheses of `C131_empty` are met -/
example : read demoMachine c!"/x" c!"/x/label.xml" (etree (rootWith emptyHeader)) (fun _ => some [49, 50]) c!"HEADER_0" =
    some (.ok (.header [49, 50])) := by
  have hk : HasKind (tag emptyHeader) .header := by
    rw [emptyHeader, tag_el]; exact Objects.hasKind_of (by decide)
  have hs := table_structures ⟨_, hk⟩
  have hv : Valid (rootWith emptyHeader) [⟨⟨c!"Header", none, none⟩, .header, c!"table.dat"⟩] := by
    refine ⟨named_el _ _ (by decide) (named_el _ _ (by decide) ⟨named_el _ _ (by decide) (named_tx _ _ (by decide)),
      named_el _ _ (by decide) ⟨named_tx _ _ (by decide), named_tx _ _ (by decide), named_tx _ _ (by decide)⟩⟩), ?_, ?_, ?_, ?_, ?_, ?_⟩
    · rw [show tag (rootWith emptyHeader) = c!"Product_Observational" from tag_el _ _, ← Datatypes.contains_iff]
      decide
    · intro a ha
      rw [rootWith, hs.1, List.mem_singleton] at ha
      rw [ha]
      exact ⟨_, table_file _⟩
    · rw [rootWith, hs.2]
      refine .cons ⟨container_el _ _ (by simp), (tag_el _ _).symm, hk, ?_, ?_, table_file _⟩ .nil
      · simp [Optional, named, emptyHeader, kids_el, tag_tx]
      · simp [Optional, named, emptyHeader, kids_el, tag_tx]
    · rw [rootWith, hs.2]
      intro p hp hk'
      rw [List.mem_singleton] at hp
      subst hp
      cases kind_unique hk' hk
    · rw [rootWith, hs.2]
      intro p hp hk'
      rw [List.mem_singleton] at hp
      subst hp
      cases kind_unique hk' hk
    · rw [rootWith, hs.2]
      intro p hp _
      rw [List.mem_singleton] at hp
      subst hp
      simp [CompleteHeader, named, emptyHeader, kids_el, tag_tx]
  refine C131_empty demoMachine c!"/x" c!"/x/label.xml" _ _ hv (fun _ => some [49, 50]) [] _ [] rfl _ emptyHeader
    (by rw [rootWith, hs.2]; rfl) rfl (by decide) (by intro mid e last h; cases mid <;> cases h) ⟨by decide, by decide⟩ c!"/x/table.dat"
    ⟨by decide, by decide, by decide⟩ not_fits
    ⟨⟨tx c!"offset" c!"0", by simp [named, emptyHeader, kids_el, tag_tx],
      digit_says _ _ _ (.inl ⟨by decide, by decide⟩) (by decide) (by decide) (by decide)⟩,
     ⟨tx c!"object_length" c!"0", by simp [named, emptyHeader, kids_el, tag_tx],
      digit_says _ _ _ (.inl ⟨by decide, by decide⟩) (by decide) (by decide) (by decide)⟩⟩ _ rfl

end Verif.Pds4Read
