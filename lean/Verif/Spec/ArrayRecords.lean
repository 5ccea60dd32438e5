/-
Specification of arrays of records.
-/
import Verif.Model.ArrayRecords
import Verif.Spec.ImageFile

namespace Verif.ArrayRecords.Spec
open Verif.Py Verif.Format Verif.Format.Spec Verif.Datatypes Verif.Datatypes.Spec Verif.Table.Spec Verif.Image

/-- the sizes of the values of a record, in label order -/
def sizes (es : List Format.Spec.Entry) : List Nat := (slots 0 es).map (·.size)

/-- An ARRAY whose subobjects are ELEMENTs and COLLECTIONs of ELEMENTs, repeated or not. -/
structure Defined (a : Block) (es : List Format.Spec.Entry) : Prop where
  defs : a.b.defs = es.map Entry.toDef
  types : ∀ s ∈ slots 0 es, ∃ d, Means (underscored s.attrs.dataType) s.size d
  names : (columnNames 0 es).Nodup
  size : 0 < (sizes es).sum

/-- The values of a record follow each other without gaps, in label order. -/
def Dense (es : List Format.Spec.Entry) : Prop :=
  ∀ k s, (slots 0 es)[k]? = some s → s.off = (((sizes es).take k).sum : Int)

/-- The field named `n` of a record has this value. -/
def FieldHas (r : Record) (n : Str) (v : Value) : Prop := ∃ e, (n, e) ∈ r ∧ (∀ e', (n, e') ∈ r → e' = e) ∧ ImageFile.Spec.Is e v

end Verif.ArrayRecords.Spec
