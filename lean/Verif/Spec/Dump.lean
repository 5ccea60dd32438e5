/-
Specification of `dump_browse`: which browse files an object has.
-/
import Verif.Model.Dump
import Verif.Spec.Browse

namespace Verif.Dump.Spec
open Verif.Py Verif.Browse Verif.Browse.Spec

variable {A I : Type}

/-- the file for an object, without what may come after its name -/
inductive Begins (E : Env A I) (name : Str) : Str → Prop
  | here : E.outpath = c!"." → Begins E name (E.stem ++ '_' :: name)
  | there : E.outpath ≠ c!"." → Begins E name (E.outpath ++ '/' :: (E.stem ++ '_' :: name))

/-- one picture of an array with `n` bands: what is drawn -/
inductive Chosen (o : Options) (n : Nat) : Part → Prop
  /-- the channels that were asked for -/
  | channels {i j k : Int} {r g b : Nat} : o.rgbChannels = some (i, j, k) → Names n i r → Names n j g → Names n k b → Chosen o n (.rgb r g b)
  /-- three or four bands are colors -/
  | color : o.rgbChannels = none → n = 3 ∨ n = 4 → o.overrideRgba = false → Chosen o n (.rgb 0 1 2)
  /-- the band that was asked for -/
  | asked {i : Int} {k : Nat} : o.rgbChannels = none → ¬ (n = 3 ∨ n = 4) ∨ o.overrideRgba = true → o.bandIx = .int i → Names n i k →
      Chosen o n (.band k)
  /-- the band in the middle; of two, the one with the even number -/
  | middle {k : Nat} : o.rgbChannels = none → ¬ (n = 3 ∨ n = 4) ∨ o.overrideRgba = true → o.bandIx ≠ .burst →
      (∀ i, o.bandIx = .int i → ∀ j, ¬ Names n i j) → n = 2 * k ∨ k % 2 = 0 ∧ (n = 2 * k + 1 ∨ n + 1 = 2 * k) → k < n → Chosen o n (.band k)

/-- each band becomes a picture -/
def Burst (o : Options) (n : Nat) : Prop := o.rgbChannels = none ∧ (¬ (n = 3 ∨ n = 4) ∨ o.overrideRgba = true) ∧ o.bandIx = .burst

/-- The browse files of a value with names that begin like this. -/
inductive Files (E : Env A I) (o : Options) (purge : Bool) (base : Str) : Item A → List (Str × Content A I) → Prop
  | table {rows : Nat} {a : A} : rows ≠ 1 → Files E o purge base (.frame rows a) [(base ++ c!".csv", .rows a)]
  | row {a : A} : Files E o purge base (.frame 1 a) [(base ++ c!".csv", .turned a)]
  | records {a : A} : Files E o purge base (.recarray true a) [(base ++ c!".csv", .rows a)]
  | nested {a : A} : Files E o purge base (.recarray false a) [(base ++ c!"_nested_recarray.pkl", .pickled a)]
  | nothing : Files E o purge base .none []
  | xml {a : A} : Files E o purge base (.xml a) [(base ++ c!".xml", .xml a)]
  | text {a : A} : Files E o purge base (.other a) [(base ++ c!".txt", .text a)]
  | column {p : Bool} {n : Nat} {a : A} : Files E o purge base (.array p [n] a) [(base ++ c!".csv", .column a)]
  | picture {p : Bool} {dims : List Nat} {a : A} {i : I} : dims.length ≠ 1 → dims.length ≠ 3 → E.render .whole purge a = .ok i →
      Files E o purge base (.array p dims a) [(base ++ '.' :: o.format, .picture i)]
  | bands {p : Bool} {dims : List Nat} {n : Nat} {part : Part} {a : A} {i : I} : dims.length = 3 → dims[o.sliceAxis]? = some n → Chosen o n part →
      E.render part purge a = .ok i → Files E o purge base (.array p dims a) [(base ++ '.' :: o.format, .picture i)]
  | burst {p : Bool} {dims : List Nat} {n : Nat} {a : A} {is : List I} : dims.length = 3 → dims[o.sliceAxis]? = some n → Burst o n → is.length = n →
      (∀ k i, is[k]? = some i → E.render (.band k) purge a = .ok i) →
      Files E o purge base (.array p dims a) (is.zipIdx.map (fun e => (base ++ '_' :: natStr e.2 ++ '.' :: o.format, .picture e.1)))

/-- an image: a plain array of several dimensions (or none) -/
def Image : Item A → Prop
  | .array true dims _ => dims.length ≠ 1
  | _ => False

/-- The browse files of an object: images are scaled, or not, or both. -/
inductive FilesOf (E : Env A I) (o : Options) (name : Str) : Item A → List (Str × Content A I) → Prop
  | plain {base : Str} {item : Item A} {fs : List (Str × Content A I)} : Begins E name base → ¬ Image item → Files E o o.purge base item fs →
      FilesOf E o name item fs
  | scaled {base : Str} {dims : List Nat} {a a' : A} {fs : List (Str × Content A I)} : Begins E name base → dims.length ≠ 1 → o.scaled = .yes →
      E.scale name o.purge a = .ok a' → Files E o o.purge base (.array false dims a') fs → FilesOf E o name (.array true dims a) fs
  | unscaled {base : Str} {dims : List Nat} {a : A} {fs : List (Str × Content A I)} : Begins E name base → dims.length ≠ 1 → o.scaled = .no →
      E.fits = false → Files E o o.purge base (.array true dims a) fs → FilesOf E o name (.array true dims a) fs
  | both {base : Str} {dims : List Nat} {a a' : A} {fs fs' : List (Str × Content A I)} : Begins E name base → dims.length ≠ 1 → o.scaled = .both →
      E.fits = false → E.scale name false a = .ok a' → Files E o false (base ++ c!"_scaled") (.array false dims a') fs →
      Files E o o.purge (base ++ c!"_unscaled") (.array true dims a) fs' → FilesOf E o name (.array true dims a) (fs ++ fs')
  | fits {base : Str} {dims : List Nat} {a : A} {fs : List (Str × Content A I)} : Begins E name base → dims.length ≠ 1 →
      o.scaled = .both ∨ o.scaled = .no → E.fits = true → Files E o o.purge (base ++ c!"_scaled") (.array true dims a) fs →
      FilesOf E o name (.array true dims a) fs

/-- what may come between the name of an object and the suffix of a file -/
inductive Ending : Str → Prop
  | scaled : Ending c!"_scaled"
  | unscaled : Ending c!"_unscaled"
  | band {k : Nat} : Ending ('_' :: natStr k)
  | scaledBand {k : Nat} : Ending (c!"_scaled_" ++ natStr k)
  | unscaledBand {k : Nat} : Ending (c!"_unscaled_" ++ natStr k)
  | nested : Ending c!"_nested_recarray"

/-- the object is in the list and loaded -/
def Loaded (s : State A I) (name : Str) : Prop := name ∈ s.index ∧ s.attrs name ≠ none

/-- No object that is loaded has the name of another one with such an ending. -/
def NoClash (s : State A I) : Prop := ∀ n m, Loaded s n → Loaded s m → ∀ x, Ending x → m ≠ n ++ x

/-- a file name for an object -/
def NameFor (E : Env A I) (o : Options) (name path : Str) : Prop :=
  ∃ base x ext, Begins E name base ∧ (x = [] ∨ Ending x) ∧ ext ∈ [c!"csv", c!"xml", c!"txt", c!"pkl", o.format] ∧ path = base ++ x ++ '.' :: ext

end Verif.Dump.Spec
