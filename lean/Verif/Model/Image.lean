/-
Model of the image reader: `pdr/loaders/image.py` and the image part of `pdr/loaders/queries.py`
(44-247). Arrays are a shape and an indexing function; element values are opaque.
-/
import Verif.Model.Bits

namespace Verif.Image
open Verif.Py Verif.Bits

/-! ### numpy arrays -/

/-- A numpy array: a shape and its elements (`none` only outside the data it was made from). -/
structure Arr (α : Type) where
  shape : List Nat
  get : List Nat → Option α

/-- number of elements of a shape -/
def prod : List Nat → Nat
  | [] => 1
  | n :: ns => n * prod ns

/-- position of an index in C order -/
def ravel : List Nat → List Nat → Nat
  | _ :: ns, i :: is => i * prod ns + ravel ns is
  | _, _ => 0

/-- index of a position in C order -/
def unravel : List Nat → Nat → List Nat
  | [], _ => []
  | _ :: ns, k => k / prod ns :: unravel ns (k % prod ns)

/-- the 1-D array of a list -/
def Arr.ofList {α : Type} (l : List α) : Arr α :=
  ⟨[l.length], fun idx => match idx with | [i] => l[i]? | _ => none⟩

/-- `a.reshape(shape)` -/
def Arr.reshape {α : Type} (a : Arr α) (shape : List Nat) : Except PyErr (Arr α) :=
  if prod a.shape = prod shape then
    .ok ⟨shape, fun idx => a.get (unravel a.shape (ravel shape idx))⟩
  else .error .valueError

/-- `a[..., start:stop, ...]` on axis `ax` -/
def Arr.slice {α : Type} (a : Arr α) (ax : Nat) (start stop : Option Int) : Arr α :=
  let n := a.shape.getD ax 0
  let lo := match start with | none => 0 | some i => clampIx n i
  let hi := match stop with | none => n | some i => clampIx n i
  ⟨a.shape.set ax (hi - lo), fun idx => a.get (idx.modify ax (· + lo))⟩

/-- `np.moveaxis(a, 2, 0)` on a 3-D array -/
def Arr.move20 {α : Type} (a : Arr α) : Arr α :=
  match a.shape with
  | [n0, n1, n2] => ⟨[n2, n0, n1], fun idx => match idx with | [k, i, j] => a.get [i, j, k] | _ => none⟩
  | _ => a

/-- `np.moveaxis(a, 0, 1)` on a 3-D array -/
def Arr.move01 {α : Type} (a : Arr α) : Arr α :=
  match a.shape with
  | [n0, n1, n2] => ⟨[n1, n0, n2], fun idx => match idx with | [j, i, k] => a.get [i, j, k] | _ => none⟩
  | _ => a

/-- elementwise conversion -/
def Arr.map {α : Type} (f : α → α) (a : Arr α) : Arr α := ⟨a.shape, fun idx => (a.get idx).map f⟩

/-! ### image properties -/

/-- the `props` dictionary (optional keys as `Option`) -/
structure Props where
  nrows : Nat
  ncols : Nat
  nbands : Nat
  bst : Option Str
  rowpad : Nat := 0
  colpad : Nat := 0
  bandpad : Nat := 0
  linepad : Nat := 0
  linePrefixPix : Option Nat := none
  lineSuffixPix : Option Nat := none
  prefixRows : Option Nat := none
  prefixCols : Option Nat := none
  prefixBands : Option Nat := none
  suffixRows : Option Nat := none
  suffixCols : Option Nat := none
  suffixBands : Option Nat := none

/-- `fixbytes / BYTES_PER_PIXEL`, which must be whole. Simplification: exact division instead of
floating-point division. -/
def wholePixels (fixbytes bpp : Nat) : Except PyErr Nat :=
  if bpp = 0 then .error .zeroDivision
  else if fixbytes % bpp ≠ 0 then .error .notImplemented
  else .ok (fixbytes / bpp)

/-- queries.py 126-135: one side; a size of zero bytes counts as absent -/
def linefixOne (bpp : Nat) : Option Nat → Except PyErr (Option Nat)
  | none => .ok none
  | some 0 => .ok none
  | some n => match wholePixels n bpp with
    | .error e => .error e
    | .ok k => .ok (some k)

/-- queries.py 123-137 `extract_linefix_metadata` on `LINE_PREFIX_BYTES`, `LINE_SUFFIX_BYTES` -/
def linefixMeta (bpp : Nat) (preBytes sufBytes : Option Nat) (p : Props) : Except PyErr Props :=
  match linefixOne bpp preBytes with
  | .error e => .error e
  | .ok pre =>
    match linefixOne bpp sufBytes with
    | .error e => .error e
    | .ok suf => .ok { p with linePrefixPix := pre, lineSuffixPix := suf,
                              linepad := pre.getD 0 + suf.getD 0 }

/-- an IMAGE definition: the keys the code reads -/
structure ImageBlock where
  sampleBits : Nat
  lines : Nat
  lineSamples : Nat
  bands : Option Nat := none
  bst : Option Str := none
  linePrefixBytes : Option Nat := none
  lineSuffixBytes : Option Nat := none

/-- queries.py 219-247 `generic_image_properties` for a block without `..._ITEM_BYTES` keys (those
belong to qubes; on an IMAGE they raise ValueError for want of axis names). -/
def imageProps (b : ImageBlock) : Except PyErr Props :=
  let base : Except PyErr Props :=
    match b.bands with
    | some n =>
      if b.bst = none ∧ 1 < n then .error .valueError
      else .ok { nrows := b.lines, ncols := b.lineSamples, nbands := n, bst := b.bst }
    | none => .ok { nrows := b.lines, ncols := b.lineSamples, nbands := 1, bst := none }
  match base with
  | .error e => .error e
  | .ok p => linefixMeta (b.sampleBits / 8) b.linePrefixBytes b.lineSuffixBytes p

/-! #### qubes -/

inductive Axis | band | line | sample
  deriving DecidableEq

/-- value of `{ax}_{side}_ITEM_BYTES`: a number or a sequence -/
inductive ItemBytes where
  | one (n : Nat)
  | many (ns : List Nat)

/-- a QUBE definition: the keys the code reads (merged view of the block and its CORE block) -/
structure QubeBlock where
  itemBytes : Nat
  coreItems : List Nat
  axisName : Option (List Axis)
  bst : Option Str := none
  prefixItems : Option (List Nat) := none
  suffixItems : Option (List Nat) := none
  itemBytesOf : Axis → Bool → Option ItemBytes := fun _ _ => none   -- `true` = SUFFIX
  linePrefixBytes : Option Nat := none
  lineSuffixBytes : Option Nat := none

/-- the number of planes one `..._ITEM_BYTES` key declares (queries.py 90-120) -/
def axplaneCount (b : QubeBlock) (ax : Axis) (suffix : Bool) : Except PyErr (Option Nat) :=
  match b.itemBytesOf ax suffix with
  | none => .ok none
  | some ib =>
    match (if suffix then b.suffixItems else b.prefixItems) with
    | none => .error .valueError
    | some counts =>
      match b.axisName with
      | none => .error .valueError
      | some names =>
        let fix : Except PyErr Nat :=
          match ib with
          | .many ns => if ns.any (fun x => ns.any (fun y => x ≠ y)) then .error .notImplemented
                        else .ok ns.sum
          | .one n =>
            if ax ∈ names then
              match counts[names.idxOf ax]? with
              | some c => .ok (c * n)
              | none => .error .indexError
            else .error .valueError
        match fix with
        | .error e => .error e
        | .ok fixbytes =>
          match wholePixels fixbytes b.itemBytes with
          | .error e => .error e
          | .ok k => .ok (some k)

/-- queries.py 85-120 `extract_axplane_metadata`; keys are visited in the order of
`product(("BAND", "LINE", "SAMPLE"), ("PREFIX", "SUFFIX"))` -/
def axplaneMeta (b : QubeBlock) (p : Props) : Except PyErr Props :=
  match axplaneCount b .band false with
  | .error e => .error e
  | .ok pb => match axplaneCount b .band true with
  | .error e => .error e
  | .ok sb => match axplaneCount b .line false with
  | .error e => .error e
  | .ok pl => match axplaneCount b .line true with
  | .error e => .error e
  | .ok sl => match axplaneCount b .sample false with
  | .error e => .error e
  | .ok ps => match axplaneCount b .sample true with
  | .error e => .error e
  | .ok ss =>
    .ok { p with prefixBands := pb, suffixBands := sb, prefixRows := pl, suffixRows := sl,
                 prefixCols := ps, suffixCols := ss,
                 bandpad := pb.getD 0 + sb.getD 0, rowpad := pl.getD 0 + sl.getD 0,
                 colpad := ps.getD 0 + ss.getD 0 }

/-- the loop `props[ax_map[ax]] = count` of queries.py 60-62 (later axes overwrite earlier ones) -/
def axisCount (ax : Axis) : List Axis → List Nat → Option Nat
  | a :: as, n :: ns =>
    match axisCount ax as ns with
    | some m => some m
    | none => if a = ax then some n else none
  | _, _ => none

/-- the storage-order table of queries.py 72-76, on `reversed(axnames)`; other orders are a KeyError -/
def qubeOrder : List Axis → Option Str
  | [.sample, .line, .band] => some c!"BAND_SEQUENTIAL"
  | [.band, .sample, .line] => some c!"SAMPLE_INTERLEAVED"
  | [.sample, .band, .line] => some c!"LINE_INTERLEAVED"
  | _ => none

/-- queries.py 44-82 `generic_qube_properties`, then `props["nbands"]` being read (145-197): a qube
without axis names never gets a band count. -/
def qubeProps (b : QubeBlock) : Except PyErr Props :=
  match b.axisName with
  | none => .error .keyError          -- 64-65 set rows and columns only (IndexError if CORE_ITEMS is short)
  | some names =>
    let order : Except PyErr Str :=
      match b.bst with
      | some s => .ok s
      | none => match qubeOrder names with
        | some s => .ok s
        | none => .error .keyError
    match order with
    | .error e => .error e
    | .ok s =>
      match axisCount .line names b.coreItems, axisCount .sample names b.coreItems,
            axisCount .band names b.coreItems with
      | some r, some c, some n =>
        match axplaneMeta b { nrows := r, ncols := c, nbands := n, bst := some s } with
        | .error e => .error e
        | .ok p => linefixMeta b.itemBytes b.linePrefixBytes b.lineSuffixBytes p
      | _, _, _ => .error .keyError

/-- queries.py 145-166 `check_fix_validity` -/
def checkFixValidity (p : Props) : Except PyErr Unit :=
  if 0 < p.linepad ∧ 0 < p.rowpad + p.colpad + p.bandpad then .error .notImplemented
  else if 1 < ([p.rowpad, p.colpad, p.bandpad].filter (0 < ·)).length then .error .notImplemented
  else if 0 < p.linepad ∧ ¬ (p.bst = none ∨ p.bst = some c!"LINE_INTERLEAVED") ∧ 1 < p.nbands then
    .error .notImplemented
  else .ok ()

/-- queries.py 185-198 `get_image_properties`: `props["pixels"]` -/
def pixels (p : Props) : Nat :=
  (p.nrows + p.rowpad) * (p.ncols + p.colpad + p.linepad) * (p.nbands + p.bandpad)

/-! ### image.py -/

/-- image, side planes, line prefix, line suffix -/
structure Loaded (α : Type) where
  image : Arr α
  planes : List (Arr α)
  prefix? : Option (Arr α)
  suffix? : Option (Arr α)

/-- image.py 55-73 `extract_single_band_linefix` -/
def singleBandLinefix {α : Type} (image : Arr α) (p : Props) :
    Except PyErr (Arr α × Option (Arr α) × Option (Arr α)) :=
  if p.linepad = 0 then .ok (image, none, none)
  else match image.reshape [p.nrows, p.ncols + p.linepad] with
    | .error e => .error e
    | .ok image =>
      let s := p.lineSuffixPix.getD 0
      let suffix := if 0 < s then some (image.slice 1 (some (-(s : Int))) none) else none
      let image := if 0 < s then image.slice 1 none (some (-(s : Int))) else image
      let q := p.linePrefixPix.getD 0
      let pre := if 0 < q then some (image.slice 1 none (some (q : Int))) else none
      let image := if 0 < q then image.slice 1 (some (q : Int)) none else image
      .ok (image, pre, suffix)

/-- image.py 124: `image[:, :-line_suffix_pix]`, if there is one -/
def cutSuffix {α : Type} (image : Arr α) : Option Nat → Arr α
  | some s => image.slice 1 none (some (-(s : Int)))
  | none => image

/-- image.py 127: `image[:, line_prefix_pix:]`, if there is one -/
def cutPrefix {α : Type} (image : Arr α) : Option Nat → Arr α
  | some q => image.slice 1 (some (q : Int)) none
  | none => image

/-- image.py 110-128 `extract_bil_linefix` -/
def bilLinefix {α : Type} (image : Arr α) (p : Props) :
    Except PyErr (Arr α × Option (Arr α) × Option (Arr α)) :=
  if p.linepad = 0 then .ok (image, none, none)
  else if p.nrows = 0 then .error .zeroDivision
  else match image.reshape [p.nrows, prod image.shape / p.nrows] with
    | .error e => .error e
    | .ok image =>
      let suffix := p.lineSuffixPix.map (fun (s : Nat) => image.slice 1 (some (-(s : Int))) none)
      let image := cutSuffix image p.lineSuffixPix
      let pre := p.linePrefixPix.map (fun (q : Nat) => image.slice 1 none (some (q : Int)))
      let image := cutPrefix image p.linePrefixPix
      .ok (image, pre, suffix)

/-- image.py 183-205: one step of the loop of `extract_axplanes`. `ax` is the axis number in a 3-D
image (band 0, row 1, column 2); in a 2-D image the band axis does not exist, and nothing is cut. -/
def axplaneStep {α : Type} (suffix : Bool) (ax : Nat) (count : Option Nat) (s : Arr α × List (Arr α)) :
    Arr α × List (Arr α) :=
  match count with
  | none => s
  | some c =>
    let image := s.1
    if image.shape.length = 2 ∧ ax = 0 then (image, s.2 ++ [image])
    else
      let axn := if image.shape.length = 2 then ax - 1 else ax
      if suffix then
        (image.slice axn none (some (-(c : Int))), s.2 ++ [image.slice axn (some (-(c : Int))) none])
      else
        (image.slice axn (some (c : Int)) none, s.2 ++ [image.slice axn none (some (c : Int))])

/-- image.py 178-206 `extract_axplanes` -/
def extractAxplanes {α : Type} (image : Arr α) (p : Props) : Arr α × List (Arr α) :=
  axplaneStep true 0 p.suffixBands <| axplaneStep true 2 p.suffixCols <|
  axplaneStep true 1 p.suffixRows <| axplaneStep false 0 p.prefixBands <|
  axplaneStep false 2 p.prefixCols <| axplaneStep false 1 p.prefixRows (image, [])

/-- image.py 83-107 `process_single_band_image`. `avail` are the elements of the file from the image's
start byte on; `np.fromfile(count=n)` returns at most `n` of them. `conv` is the VAX conversion (or
the identity); the final copy to C order changes no element. -/
def singleBand {α : Type} (conv : α → α) (avail : List α) (p : Props) : Except PyErr (Loaded α) :=
  match singleBandLinefix (Arr.ofList (avail.take (pixels p))) p with
  | .error e => .error e
  | .ok (image, pre, suf) =>
    match (image.map conv).reshape [p.nrows + p.rowpad, p.ncols + p.colpad] with
    | .error e => .error e
    | .ok image =>
      let r := extractAxplanes image p
      .ok ⟨r.1, r.2, pre, suf⟩

/-- image.py 131-175 `process_multiband_image`; unknown storage types are read as band-sequential. -/
def multiBand {α : Type} (conv : α → α) (avail : List α) (p : Props) : Except PyErr (Loaded α) :=
  let image := (Arr.ofList (avail.take (pixels p))).map conv
  let bands := p.nbands + p.bandpad
  let lines := p.nrows + p.rowpad
  let samples := p.ncols + p.colpad
  let shaped : Except PyErr (Arr α × Option (Arr α) × Option (Arr α)) :=
    if p.bst = some c!"LINE_INTERLEAVED" then
      match bilLinefix image p with
      | .error e => .error e
      | .ok (image, pre, suf) =>
        match image.reshape [lines, bands, samples] with
        | .error e => .error e
        | .ok image => .ok (image.move01, pre, suf)
    else if p.bst = some c!"SAMPLE_INTERLEAVED" then
      match image.reshape [lines, samples, bands] with
      | .error e => .error e
      | .ok image => .ok (image.move20, none, none)
    else
      match image.reshape [bands, lines, samples] with
      | .error e => .error e
      | .ok image => .ok (image, none, none)
  match shaped with
  | .error e => .error e
  | .ok (image, pre, suf) =>
    let r := extractAxplanes image p
    .ok ⟨r.1, r.2, pre, suf⟩

/-- image.py 18-39 `read_image`, before the choice between image, prefix and suffix by object name -/
def readImage {α : Type} (conv : α → α) (avail : List α) (p : Props) : Except PyErr (Loaded α) :=
  match checkFixValidity p with
  | .error e => .error e
  | .ok () => if p.nbands = 1 then singleBand conv avail p else multiBand conv avail p

end Verif.Image
