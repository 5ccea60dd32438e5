/-
Specification of tables with comma-separated values that special readers read.
-/
import Verif.Spec.LooseText
import Verif.Model.MissionCsv

namespace Verif.MissionCsv.Spec
open Verif.Py

/-- How many lines there are before the table of a Cassini spreadsheet whose columns have the names of the label. -/
inductive LinesBefore (filename dataSet : Str) : Nat → Prop
  | full : c!"FULL" <:+: filename → dataSet ≠ c!"CO-S-MIMI-4-CHEMS-CALIB-V1.0" → LinesBefore filename dataSet 4
  | radar : ¬ c!"FULL" <:+: filename → dataSet = c!"CO-SSA-RADAR-3-ABDR-SUMMARY-V1.0" → LinesBefore filename dataSet 0
  | other : ¬ c!"FULL" <:+: filename → dataSet ≠ c!"CO-SSA-RADAR-3-ABDR-SUMMARY-V1.0" → LinesBefore filename dataSet 7

/-- The file has its own names of columns, and so many lines between them and the table that are not part of it. -/
inductive OwnNames (filename dataSet : Str) : Nat → Prop
  | raw : c!"UNCALIB" <:+: dataSet → OwnNames filename dataSet 0
  | chems : c!"FULL" <:+: filename → dataSet = c!"CO-S-MIMI-4-CHEMS-CALIB-V1.0" → OwnNames filename dataSet 3

end Verif.MissionCsv.Spec
