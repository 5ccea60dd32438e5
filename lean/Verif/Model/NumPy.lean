/-
The parts of NumPy's integer arithmetic that pdr relies on (NumPy 2, NEP 50). This is the documented behaviour
of the library, not code of the repository.
-/
import Verif.Model.Py

namespace Verif.NumPy

/-- an integer dtype -/
structure IntType where
  signed : Bool
  bits : Nat
deriving DecidableEq, Repr

def int8 : IntType := ⟨true, 8⟩
def int16 : IntType := ⟨true, 16⟩
def int32 : IntType := ⟨true, 32⟩
def int64 : IntType := ⟨true, 64⟩
def uint8 : IntType := ⟨false, 8⟩
def uint16 : IntType := ⟨false, 16⟩
def uint32 : IntType := ⟨false, 32⟩
def uint64 : IntType := ⟨false, 64⟩

/-- the eight integer dtypes -/
def IntType.all : List IntType := [int8, int16, int32, int64, uint8, uint16, uint32, uint64]

/-- `np.iinfo(t).min` -/
def lo (t : IntType) : Int := if t.signed then -(2 ^ (t.bits - 1)) else 0

/-- `np.iinfo(t).max` -/
def hi (t : IntType) : Int := if t.signed then 2 ^ (t.bits - 1) - 1 else 2 ^ t.bits - 1

/-- integer arithmetic and conversion keep the low bits -/
def wrap (t : IntType) (x : Int) : Int := (x - lo t) % 2 ^ t.bits + lo t

/-- integer dtypes or `object` (`none`), which holds Python integers -/
abbrev DType := Option IntType

/-- the dtype of an operation on two integer arrays -/
inductive Promoted
  | int (t : IntType)
  | float64
  | object
deriving DecidableEq

/-- `np.result_type` -/
def promote : DType → DType → Promoted
  | some a, some b =>
    if a.signed = b.signed then .int ⟨a.signed, max a.bits b.bits⟩
    else
      let s := if a.signed then a else b
      let u := if a.signed then b else a
      if u.bits < s.bits then .int s
      else if u.bits < 64 then .int ⟨true, 2 * u.bits⟩
      else .float64
  | _, _ => .object

/-- `np.can_cast(p, d, 'same_kind')`: the rule for the output of in-place operations -/
def sameKind : Promoted → DType → Bool
  | .int p, some t => p.signed == t.signed || t.signed
  | .object, none => true
  | .int _, none => true
  | .float64, none => true
  | _, _ => false

/-- an element brought to the promoted dtype and the result brought back -/
def back (p : Promoted) (d : DType) (x : Int) : Int :=
  let y := match p with
    | .int t => wrap t x
    | _ => x
  match d with
  | some t => wrap t y
  | none => y

end Verif.NumPy
