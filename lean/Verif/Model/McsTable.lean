/-
Model of the tables of Mars Climate Sounder (MRO MCS DDR): `pdr/formats/mro.py` 46-188.
-/
import Verif.Model.Py
import Verif.Model.Literal
import Verif.Model.Pds4Table

namespace Verif.McsTable
open Verif.Py

/-- mro.py 75-94: the names of the columns -/
def columns : List Str := [
  c!"QUAL", c!"DATE", c!"UTC", c!"SCLK", c!"L_S", c!"SOLAR_DIST", c!"ORB_NUM", c!"GQUAL", c!"SOLAR_LAT", c!"SOLAR_LON", c!"SOLAR_ZEN",
   c!"LTST", c!"PROFILE_LAT", c!"PROFILE_LON", c!"PROFILE_RAD", c!"PROFILE_ALT", c!"LIMB_ANG", c!"ARE_RAD", c!"SURF_LAT",
   c!"SURF_LON", c!"SURF_RAD", c!"T_SURF", c!"T_SURF_ERR", c!"T_NEAR_SURF", c!"T_NEAR_SURF_ERR", c!"DUST_COLUMN", c!"DUST_COLUMN_ERR",
   c!"H2OVAP_COLUMN", c!"H2OVAP_COLUMN_ERR", c!"H2OICE_COLUMN", c!"H2OICE_COLUMN_ERR", c!"CO2ICE_COLUMN", c!"CO2ICE_COLUMN_ERR",
   c!"P_SURF", c!"P_SURF_ERR", c!"P_RET_ALT", c!"P_RET", c!"P_RET_ERR", c!"RQUAL", c!"P_QUAL", c!"T_QUAL", c!"DUST_QUAL",
   c!"H2OVAP_QUAL", c!"H2OICE_QUAL", c!"CO2ICE_QUAL", c!"SURF_QUAL", c!"OBS_QUAL", c!"REF_SCLK_0", c!"REF_SCLK_1", c!"REF_SCLK_2",
   c!"REF_SCLK_3", c!"REF_SCLK_4", c!"REF_SCLK_5", c!"REF_SCLK_6", c!"REF_SCLK_7", c!"REF_SCLK_8", c!"REF_SCLK_9", c!"REF_DATE_0",
   c!"REF_UTC_0", c!"REF_DATE_1", c!"REF_UTC_1", c!"REF_DATE_2", c!"REF_UTC_2", c!"REF_DATE_3", c!"REF_UTC_3", c!"REF_DATE_4",
   c!"REF_UTC_4", c!"REF_DATE_5", c!"REF_UTC_5", c!"REF_DATE_6", c!"REF_UTC_6", c!"REF_DATE_7", c!"REF_UTC_7", c!"REF_DATE_8",
   c!"REF_UTC_8", c!"REF_DATE_9", c!"REF_UTC_9", c!"1_layer", c!"PRES", c!"T", c!"T_ERR", c!"DUST", c!"DUST_ERR", c!"H2OVAP",
   c!"H2OVAP_ERR", c!"H2OICE", c!"H2OICE_ERR", c!"CO2ICE", c!"CO2ICE_ERR", c!"ALT", c!"LAT", c!"LON"]

/-- mro.py 95-111: the types of the columns -/
def dtypes : List Str := [
  c!"string", c!"string", c!"string", c!"float64", c!"float64", c!"float64", c!"int64", c!"int64", c!"float64", c!"float64",
   c!"float64", c!"float64", c!"float64", c!"float64", c!"float64", c!"float64", c!"float64", c!"float64", c!"float64", c!"float64",
   c!"float64", c!"float64", c!"float64", c!"float64", c!"float64", c!"float64", c!"float64", c!"float64", c!"float64", c!"float64",
   c!"float64", c!"float64", c!"float64", c!"float64", c!"float64", c!"float64", c!"float64", c!"float64", c!"int64", c!"int64",
   c!"int64", c!"int64", c!"int64", c!"int64", c!"int64", c!"float64", c!"float64", c!"float64", c!"float64", c!"float64",
   c!"float64", c!"float64", c!"float64", c!"float64", c!"float64", c!"float64", c!"string", c!"string", c!"string", c!"string",
   c!"string", c!"string", c!"string", c!"string", c!"string", c!"string", c!"string", c!"string", c!"string", c!"string", c!"string",
   c!"string", c!"string", c!"string", c!"string", c!"string", c!"string", c!"string", c!"float64", c!"float64", c!"float64",
   c!"float64", c!"float64", c!"float64", c!"float64", c!"float64", c!"float64", c!"float64", c!"float64", c!"float64", c!"float64",
   c!"float64"]

/-- `bytes.decode("ascii", errors="replace")` -/
def decodeAscii (b : List UInt8) : Str := b.map (fun x => if x < 128 then Char.ofNat x.toNat else Char.ofNat 0xFFFD)

/-- mro.py 115-119: the lines of the rest of the file -/
def lines (data : List UInt8) : List Str := (Pds4Table.splitByte 10 data).map decodeAscii

/-- mro.py 125-126, 137-138: a field without white space and quotation marks -/
def clean (f : Str) : Str := Literal.stripChars [' '] (Literal.stripChars ['"'] (strip f))

/-- mro.py 125-126, 137-138: the fields of a line -/
def fields (row : Str) : List Str := (splitOn ',' row).map clean

/-- mro.py 139-144: the lines that are not data rows -/
def bad (slice : List Str) : Nat := (slice.filter (fun r => (fields r).length ≠ 15)).length

/-- mro.py 134-145: the data rows of a record with its metadata -/
def combine (head : List Str) (slice : List Str) : List (List Str) :=
  ((slice.map fields).filter (fun f => f.length = 15)).map (fun f => head ++ f)

/-- mro.py 120-146: the records one after another. `rest` are the lines from `i` on; the loop ends at the last of them, or after it. -/
def walk (size : Nat) (rest : List Str) : Except PyErr (List (List Str)) :=
  match rest with
  | [] => .ok []
  | [_] => .ok []
  | m :: r :: rs =>
    if (fields m).length ≠ 77 then .error .typeError
    else match walk size ((r :: rs).drop (size - bad ((r :: rs).take size))) with
      | .error e => .error e
      | .ok rows => .ok (combine (fields m) ((r :: rs).take size) ++ rows)
termination_by rest.length
decreasing_by simp; omega

/-- `Series.astype` of a column of texts: every text must have a value -/
def castAll {V : Type} (cast : Str → Option V) : List Str → Option (List V)
  | [] => some []
  | c :: cs => match cast c, castAll cast cs with
    | some v, some vs => some (v :: vs)
    | _, _ => none

/-- mro.py 112, 147-148: the columns by name and type. `cast`: what a text is in a type, if it can be converted. -/
def table {V : Type} (cast : Str → Str → Option V) (rows : List (List Str)) : Nat → List (Str × Str) → Except PyErr (List (Str × List V))
  | _, [] => .ok []
  | j, (name, dtype) :: rest => match castAll (cast dtype) (rows.map (fun r => r.getD j [])) with
    | none => .error .valueError
    | some vs => match table cast rows (j + 1) rest with
      | .error e => .error e
      | .ok t => .ok ((name, vs) :: t)

/-- mro.py 46-150 `mcs_ddr_table_loader`, with `REPETITIONS` of the container -/
def loader {V : Type} (cast : Str → Str → Option V) (repetitions : Nat) (file : List UInt8) (start : Nat) :
    Except PyErr (List (Str × List V)) :=
  match walk repetitions (lines (file.drop start)) with
  | .error e => .error e
  | .ok rows => table cast rows 0 (columns.zip dtypes)

end Verif.McsTable
