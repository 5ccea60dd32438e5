/-
Specification of reading the tables of Mars Climate Sounder.
-/
import Verif.Model.McsTable

namespace Verif.McsTable.Spec
open Verif.Py

/-- a record of the file: a line of metadata, and lines of data. The fields as they are written. -/
structure Record where
  head : List Str
  rows : List (List Str)

/-- a line: the fields with commas between them -/
def line (fields : List Str) : Str := join [','] fields ++ ['\n']

/-- the text of the records -/
def text (rs : List Record) : Str := rs.flatMap (fun r => line r.head ++ r.rows.flatMap line)

/-- these bytes are the text in ASCII -/
def Ascii (s : Str) (b : List UInt8) : Prop := List.Forall₂ (fun c x => x.toNat = c.toNat ∧ x.toNat < 128) s b

/-- no white space and no quotation mark at the ends -/
def Core (s : Str) : Prop := ∀ c, s.head? = some c ∨ s.getLast? = some c → isSpace c = false ∧ c ≠ '"'

/-- the content of a field: with white space around it, and with quotation marks and blanks within them, or without -/
inductive Content : Str → Str → Prop
  | plain (a core b : Str) : (∀ c ∈ a, isSpace c = true) → (∀ c ∈ b, isSpace c = true) → Core core → Content (a ++ core ++ b) core
  | quoted (a s core s' b : Str) : (∀ c ∈ a, isSpace c = true) → (∀ c ∈ b, isSpace c = true) → (∀ c ∈ s, c = ' ') → (∀ c ∈ s', c = ' ') →
      Core core → Content (a ++ '"' :: (s ++ core ++ s') ++ '"' :: b) core

/-- no comma and no line feed -/
def Field (f : Str) : Prop := ',' ∉ f ∧ '\n' ∉ f

/-- a line with this number of fields -/
def Row (n : Nat) (fs : List Str) : Prop := fs.length = n ∧ ∀ f ∈ fs, Field f

/-- 77 fields of metadata, and data rows of 15 fields -/
def Proper (r : Record) : Prop := Row 77 r.head ∧ ∀ d ∈ r.rows, Row 15 d

/-- the rows of the table, in the order of the file: the metadata of the record, and the data -/
def tableRows (rs : List Record) : List (List Str) := rs.flatMap (fun r => r.rows.map (fun d => r.head ++ d))

/-- names and types of the 77 columns of metadata -/
def metaColumns : List (Str × Str) := [
  (c!"QUAL", c!"string"), (c!"DATE", c!"string"), (c!"UTC", c!"string"), (c!"SCLK", c!"float64"), (c!"L_S", c!"float64"),
   (c!"SOLAR_DIST", c!"float64"), (c!"ORB_NUM", c!"int64"), (c!"GQUAL", c!"int64"), (c!"SOLAR_LAT", c!"float64"),
   (c!"SOLAR_LON", c!"float64"), (c!"SOLAR_ZEN", c!"float64"), (c!"LTST", c!"float64"), (c!"PROFILE_LAT", c!"float64"),
   (c!"PROFILE_LON", c!"float64"), (c!"PROFILE_RAD", c!"float64"), (c!"PROFILE_ALT", c!"float64"), (c!"LIMB_ANG", c!"float64"),
   (c!"ARE_RAD", c!"float64"), (c!"SURF_LAT", c!"float64"), (c!"SURF_LON", c!"float64"), (c!"SURF_RAD", c!"float64"),
   (c!"T_SURF", c!"float64"), (c!"T_SURF_ERR", c!"float64"), (c!"T_NEAR_SURF", c!"float64"), (c!"T_NEAR_SURF_ERR", c!"float64"),
   (c!"DUST_COLUMN", c!"float64"), (c!"DUST_COLUMN_ERR", c!"float64"), (c!"H2OVAP_COLUMN", c!"float64"),
   (c!"H2OVAP_COLUMN_ERR", c!"float64"), (c!"H2OICE_COLUMN", c!"float64"), (c!"H2OICE_COLUMN_ERR", c!"float64"),
   (c!"CO2ICE_COLUMN", c!"float64"), (c!"CO2ICE_COLUMN_ERR", c!"float64"), (c!"P_SURF", c!"float64"), (c!"P_SURF_ERR", c!"float64"),
   (c!"P_RET_ALT", c!"float64"), (c!"P_RET", c!"float64"), (c!"P_RET_ERR", c!"float64"), (c!"RQUAL", c!"int64"),
   (c!"P_QUAL", c!"int64"), (c!"T_QUAL", c!"int64"), (c!"DUST_QUAL", c!"int64"), (c!"H2OVAP_QUAL", c!"int64"),
   (c!"H2OICE_QUAL", c!"int64"), (c!"CO2ICE_QUAL", c!"int64"), (c!"SURF_QUAL", c!"float64"), (c!"OBS_QUAL", c!"float64"),
   (c!"REF_SCLK_0", c!"float64"), (c!"REF_SCLK_1", c!"float64"), (c!"REF_SCLK_2", c!"float64"), (c!"REF_SCLK_3", c!"float64"),
   (c!"REF_SCLK_4", c!"float64"), (c!"REF_SCLK_5", c!"float64"), (c!"REF_SCLK_6", c!"float64"), (c!"REF_SCLK_7", c!"float64"),
   (c!"REF_SCLK_8", c!"float64"), (c!"REF_SCLK_9", c!"string"), (c!"REF_DATE_0", c!"string"), (c!"REF_UTC_0", c!"string"),
   (c!"REF_DATE_1", c!"string"), (c!"REF_UTC_1", c!"string"), (c!"REF_DATE_2", c!"string"), (c!"REF_UTC_2", c!"string"),
   (c!"REF_DATE_3", c!"string"), (c!"REF_UTC_3", c!"string"), (c!"REF_DATE_4", c!"string"), (c!"REF_UTC_4", c!"string"),
   (c!"REF_DATE_5", c!"string"), (c!"REF_UTC_5", c!"string"), (c!"REF_DATE_6", c!"string"), (c!"REF_UTC_6", c!"string"),
   (c!"REF_DATE_7", c!"string"), (c!"REF_UTC_7", c!"string"), (c!"REF_DATE_8", c!"string"), (c!"REF_UTC_8", c!"string"),
   (c!"REF_DATE_9", c!"string"), (c!"REF_UTC_9", c!"string")]

/-- names and types of the 15 columns of data -/
def dataColumns : List (Str × Str) := [
  (c!"1_layer", c!"string"), (c!"PRES", c!"float64"), (c!"T", c!"float64"), (c!"T_ERR", c!"float64"), (c!"DUST", c!"float64"),
   (c!"DUST_ERR", c!"float64"), (c!"H2OVAP", c!"float64"), (c!"H2OVAP_ERR", c!"float64"), (c!"H2OICE", c!"float64"),
   (c!"H2OICE_ERR", c!"float64"), (c!"CO2ICE", c!"float64"), (c!"CO2ICE_ERR", c!"float64"), (c!"ALT", c!"float64"),
   (c!"LAT", c!"float64"), (c!"LON", c!"float64")]

/-- `v` is the value of this field in this type -/
def Value {V : Type} (cast : Str → Str → Option V) (field dtype : Str) (v : V) : Prop := ∃ core, Content field core ∧ cast dtype core = some v

end Verif.McsTable.Spec
