/-
Model of `Data.dump_browse` (`pdr/pdr.py` 989-1126) and `pdr/browsify.py` 157-257: which files are written, with what in them, and what
happens to the loaded objects.

Simplifications: how an array is drawn (Model/Browse) and scaled (Model/Scaling) is given by functions; arrays of different objects do not
share memory; objects named like attributes of `Data` itself, `save=False` and negative `slice_axis` are left out; a file is either written
or cannot be opened.
-/
import Verif.Model.Browse

namespace Verif.Dump
open Verif.Py Verif.Browse

/-- a loaded object, by its class (browsify.py 157-191): `plain` arrays are not of a subclass of `ndarray` (pdr.py 1097); `flat` recarrays can
become a DataFrame -/
inductive Item (A : Type) where
  | recarray (flat : Bool) (a : A)
  | array (plain : Bool) (dims : List Nat) (a : A)
  | frame (rows : Nat) (a : A)
  | none
  | xml (a : A)
  | other (a : A)

/-- what is drawn of an array -/
inductive Part where
  | whole
  | band (k : Nat)
  | rgb (r g b : Nat)

/-- what is in a file: rows of a table (with row numbers), a table with rows and columns exchanged, a column (without numbers), a pickled
object, XML, text, a picture -/
inductive Content (A I : Type) where
  | rows (a : A)
  | turned (a : A)
  | column (a : A)
  | pickled (a : A)
  | xml (a : A)
  | text (a : A)
  | picture (i : I)

/-- the argument `scaled` -/
inductive Scaled where
  | yes
  | no
  | both
  | other
deriving DecidableEq

/-- arguments of `dump_browse` -/
structure Options where
  purge : Bool := false
  scaled : Scaled := .yes
  bandIx : BandIx := .none
  overrideRgba : Bool := false
  format : Str := c!"jpg"
  sliceAxis : Nat := 0
  rgbChannels : Option (Int × Int × Int) := none

/-- Everything else: how parts of an array are drawn (in place or not), `get_scaled` (in place or not), what is left of an array when
something fails in place, which files cannot be opened for writing, whether the product is a FITS file, where files are written and how
their names begin (pdr.py 1087-1090; `.` is the working directory). -/
structure Env (A I : Type) where
  render : Part → Bool → A → Except PyErr I
  scale : Str → Bool → A → Except PyErr A
  spoiled : Str → A → A
  opens : Str → Option PyErr
  fits : Bool
  outpath : Str
  stem : Str

/-- the objects of a product and the files on disk -/
structure State (A I : Type) where
  index : List Str
  attrs : Str → Option (Item A)
  disk : Str → Option (Content A I)

variable {A I : Type}

/-- something to write, or what stops it -/
abbrev Job (A I : Type) := Except PyErr (Str × Content A I)

/-- pdr.py 1092: `str(Path(outpath, f"{prefix}_{obj}"))`. Names with slashes are left out. -/
def outfile (E : Env A I) (name : Str) : Str :=
  if E.outpath = c!"." then E.stem ++ '_' :: name else E.outpath ++ '/' :: (E.stem ++ '_' :: name)

/-- browsify.py 260-306 `_render_array` -/
def drawing (E : Env A I) (o : Options) (purge : Bool) (base : Str) (part : Part) (a : A) : Job A I :=
  match E.render part purge a with
  | .error e => .error e
  | .ok i => .ok (base ++ '.' :: o.format, .picture i)

/-- browsify.py 208-257 `_browsify_array` -/
def browsifyArray (E : Env A I) (o : Options) (purge : Bool) (base : Str) (dims : List Nat) (a : A) : List (Job A I) :=
  if dims.length = 3 then
    match dims[o.sliceAxis]? with
    | none => [.error .valueError]
    | some n => match selectBands n o.bandIx o.overrideRgba o.rgbChannels with
      | .error e => [.error e]
      | .ok (.single k) => [drawing E o purge base (.band k) a]
      | .ok (.rgb r g b) => [drawing E o purge base (.rgb r g b) a]
      | .ok (.burst ks) => ks.zipIdx.map (fun e => drawing E o purge (base ++ '_' :: natStr e.2) (.band e.1) a)
  else [drawing E o purge base .whole a]

/-- browsify.py 157-205 `browsify` and `_browsify_recarray` -/
def browsify (E : Env A I) (o : Options) (purge : Bool) (base : Str) : Item A → List (Job A I)
  | .recarray true a => [.ok (base ++ c!".csv", .rows a)]
  | .recarray false a => [.ok (base ++ c!"_nested_recarray.pkl", .pickled a)]
  | .array _ dims a => if dims.length = 1 then [.ok (base ++ c!".csv", .column a)] else browsifyArray E o purge base dims a
  | .frame rows a => [.ok (base ++ c!".csv", if rows = 1 then .turned a else .rows a)]
  | .none => []
  | .xml a => [.ok (base ++ c!".xml", .xml a)]
  | .other a => [.ok (base ++ c!".txt", .text a)]

/-- pdr.py 1091-1124: what is done for an object -/
def jobs (E : Env A I) (o : Options) (name : Str) (item : Item A) : List (Job A I) :=
  let out := outfile E name
  match item with
  | .array true dims a =>
    if dims.length ≠ 1 then
      if E.fits ∧ (o.scaled = .both ∨ o.scaled = .no) then browsify E o o.purge (out ++ c!"_scaled") item
      else match o.scaled with
        | .both => match E.scale name false a with
          | .error e => [.error e]
          | .ok a' => browsify E o false (out ++ c!"_scaled") (.array false dims a') ++ browsify E o o.purge (out ++ c!"_unscaled") item
        | .yes => match E.scale name o.purge a with
          | .error e => [.error e]
          | .ok a' => browsify E o o.purge out (.array false dims a')
        | .no => browsify E o o.purge out item
        | .other => [.error .valueError]
    else browsify E o o.purge out item
  | _ => browsify E o o.purge out item

/-- write a file -/
def write (disk : Str → Option (Content A I)) (f : Str × Content A I) : Str → Option (Content A I) := fun p => if p = f.1 then some f.2 else disk p

/-- do these things one after the other until one fails -/
def perform (E : Env A I) : (Str → Option (Content A I)) → List (Job A I) → (Str → Option (Content A I)) × Option PyErr
  | disk, [] => (disk, none)
  | disk, .error e :: _ => (disk, some e)
  | disk, .ok f :: js => match E.opens f.1 with
    | some e => (disk, some e)
    | none => perform E (write disk f) js

/-- what a failure in place leaves -/
def damage (E : Env A I) (name : Str) : Item A → Item A
  | .array plain dims a => .array plain dims (E.spoiled name a)
  | item => item

/-- pdr.py 1091-1126: one round of the loop; objects that are not loaded are passed over -/
def dumpOne (E : Env A I) (o : Options) (s : State A I) (name : Str) : State A I × Option PyErr :=
  match s.attrs name with
  | none => (s, none)
  | some item => match perform E s.disk (jobs E o name item) with
    | (disk, none) =>
      ({ s with disk := disk, attrs := if o.purge then (fun n => if n = name then none else s.attrs n) else s.attrs }, none)
    | (disk, some e) =>
      ({ s with disk := disk, attrs := if o.purge then (fun n => if n = name then some (damage E name item) else s.attrs n) else s.attrs }, some e)

/-- pdr.py 1091: the loop over these names -/
def dumpFrom (E : Env A I) (o : Options) : State A I → List Str → State A I × Option PyErr
  | s, [] => (s, none)
  | s, name :: names => match dumpOne E o s name with
    | (s', none) => dumpFrom E o s' names
    | (s', some e) => (s', some e)

/-- pdr.py 989-1126 `dump_browse` -/
def dumpBrowse (E : Env A I) (o : Options) (s : State A I) : State A I × Option PyErr := dumpFrom E o s s.index

end Verif.Dump
