/-
Model of the scaling of PDS3 arrays: `pdr/_scaling.py` and `Data.get_scaled` (`pdr/pdr.py` 856-900),
under NumPy 2.
-/
import Verif.Model.Float
import Verif.Model.NumPy

namespace Verif.Scaling
open Verif.Py Verif.Float Verif.NumPy

/-- a number of a label: a Python `int` or `float` -/
inductive Num
  | int (n : Int)
  | float (x : ℚ)
  deriving DecidableEq

def Num.val : Num → ℚ
  | .int n => n
  | .float x => x

/-- `isinstance(x, int)` -/
def Num.isInt : Num → Bool
  | .int _ => true
  | .float _ => false

/-- a scaling factor or offset: one number, or a sequence with one for each plane -/
inductive Factor
  | one (n : Num)
  | many (ns : List Num)

/-- elements of an array: a value (for float types `none` if it is not finite) and whether it is masked -/
abbrev IElem := Int × Bool
abbrev FElem := Option ℚ × Bool

/-- an array as a list of planes (`obj[0]`, `obj[1]`, …), each the list of its elements -/
inductive Arr
  | ints (t : IntType) (planes : List (List IElem))
  | f32 (planes : List (List FElem))
  | f64 (planes : List (List FElem))

/-- `len(obj)` -/
def Arr.len : Arr → Nat
  | .ints _ p => p.length
  | .f32 p => p.length
  | .f64 p => p.length

/-- the rounding modes in use, how NumPy finds the dtype of an integer array combined with a Python integer
(an error is an OverflowError), and whether a float32 array combined with a Python number becomes float64 (NumPy 2
makes an array of the number if the first array is a masked one, and then gives it a dtype of its own) -/
structure Env where
  R : Rounding double
  R' : Rounding single
  prom : IntType → Int → Except PyErr IntType
  wide : Bool

/-- the rule for arrays without a mask (NEP 50): the dtype of the array, which has to hold the integer -/
def nep50 (t : IntType) (n : Int) : Except PyErr IntType :=
  if lo t ≤ n ∧ n ≤ hi t then .ok t else .error .overflowError

/-- an operation on floats: an infinite result of finite numbers is a RuntimeWarning, which
`overflow_wrap` turns into an exception -/
def fop {F : Format} (R : Rounding F) (op : ℚ → ℚ → ℚ) (s : ℚ) : List FElem → Except PyErr (List FElem)
  | [] => .ok []
  | (v, m) :: es => do
    let rest ← fop R op s es
    if m then .ok ((v, m) :: rest)
    else match v with
      | none => .ok ((none, m) :: rest)
      | some x => if |op x s| < limit F then .ok ((some (R.fl (op x s)), m) :: rest) else .error .runtimeWarning

/-- one plane and a number: `plane * n` or `plane + n`. The values below the mask are kept. -/
def arith (E : Env) (op : ℚ → ℚ → ℚ) (iop : Int → Int → Int) : Arr → Num → Except PyErr Arr
  | .ints t p, .int n => do
    let t' ← E.prom t n
    .ok (.ints t' (p.map (·.map fun e => if e.2 then e else (wrap t' (iop e.1 n), e.2))))
  | .ints _ p, .float x => do
    let q ← p.mapM fun l => fop E.R op x (l.map fun e => (some (if e.2 then (e.1 : ℚ) else E.R.fl e.1), e.2))
    .ok (.f64 q)
  | .f32 p, n =>
    if E.wide then do
      let q ← p.mapM fun l => fop E.R op (E.R.fl n.val) l
      .ok (.f64 q)
    else do
      let q ← p.mapM fun l => fop E.R' op (E.R'.fl n.val) l
      .ok (.f32 q)
  | .f64 p, n => do
    let q ← p.mapM fun l => fop E.R op (E.R.fl n.val) l
    .ok (.f64 q)

/-- `x * scale + offset` -/
def mulAdd (E : Env) (a : Arr) (scale offset : Num) : Except PyErr Arr := do
  let b ← arith E (· * ·) (· * ·) a scale
  arith E (· + ·) (· + ·) b offset

/-- one plane of an array -/
def Arr.planes : Arr → List Arr
  | .ints t p => p.map fun l => .ints t [l]
  | .f32 p => p.map fun l => .f32 [l]
  | .f64 p => p.map fun l => .f64 [l]

/-- the values of an array, whatever its dtype -/
def Arr.values : Arr → List (List FElem)
  | .ints _ p => p.map (·.map fun e => (some (e.1 : ℚ), e.2))
  | .f32 p => p
  | .f64 p => p

/-- _scaling.py 110-121 `_copy_scale`. The result is the list of values. Simplifications: sequences that are
not both as long as the array are not modelled (TypeError here); the dtype all planes get when they are
stacked is taken to hold their values. -/
def copyScale (E : Env) (a : Arr) (offset scale : Factor) : Except PyErr (List (List FElem)) :=
  match scale, offset with
  | .one s, .one o => (mulAdd E a s o).map Arr.values
  | .many ss, .many os =>
    if a.len = ss.length ∧ ss.length = os.length ∧ 1 < os.length then do
      let planes ← (a.planes.zip (ss.zip os)).mapM fun q => mulAdd E q.1 q.2.1 q.2.2
      .ok (planes.flatMap Arr.values)
    else .error .typeError
  | _, _ => .error .typeError

/-- _scaling.py 124-131 `_inplace_scale`: `len()` of a number is a TypeError -/
def inplaceScale (E : Env) (a : Arr) (offset scale : Factor) : Except PyErr (List (List FElem)) :=
  match scale, offset with
  | .many ss, .many os =>
    if a.len = ss.length ∧ ss.length = os.length ∧ 1 < os.length then do
      let planes ← (a.planes.zip (ss.zip os)).mapM fun q => mulAdd E q.1 q.2.1 q.2.2
      .ok (planes.flatMap Arr.values)
    else .error .typeError                          -- not modelled
  | .many _, .one _ => .error .typeError            -- not modelled if `len(obj) != len(scale)`
  | .one _, _ => .error .typeError

/-- the elements that are not masked -/
def visible (p : List (List IElem)) : List Int := (p.flatten.filter (fun e => !e.2)).map (·.1)

/-- the candidates of `fit_to_scale` for integers, in order -/
def candidates : List IntType := [uint8, uint16, uint32, uint64, int8, int16, int32, int64]

/-- _scaling.py 67-93 `fit_to_scale`, for integer arrays and two integers, and the cast it does. `overflow_wrap`
gives it what the caller calls `offset` as `scale` and the reverse; so does `scaleArray`. -/
def fitToScale (p : List (List IElem)) (scale offset : Int) : Except PyErr Arr :=
  match visible p with
  | [] => .error .valueError                        -- `min()` of an empty array, or MaskError
  | x :: xs =>
    let amin := xs.foldl min x
    let amax := xs.foldl max x
    match candidates.find? (fun c => decide (lo c ≤ amin * scale + offset) && decide (amax * scale + offset ≤ hi c)) with
    | some c => .ok (.ints c (p.map (·.map fun e => (wrap c e.1, e.2))))
    | none => .error .typeError

/-- _scaling.py 96-107 `overflow_wrap`: `f` is given (arr, offset, scale), the names of its first argument are
swapped. After an overflow of floats, or of sequences of numbers, the error is final here (simplification:
`fit_to_scale` may find a wider float type). -/
def overflowWrap (f : Arr → Factor → Factor → Except PyErr (List (List FElem))) (a : Arr) (offset scale : Factor) :
    Except PyErr (List (List FElem)) :=
  match f a offset scale with
  | .error .overflowError =>
    match a, offset, scale with
    | .ints _ p, .one (.int o), .one (.int s) =>
      match fitToScale p o s with
      | .ok b => f b offset scale
      | .error e => .error e
    | _, _, _ => .error .overflowError
  | r => r

/-- the numbers in a factor are all integers, and it is no sequence: `isinstance(operand, int)` -/
def Factor.isInt : Factor → Bool
  | .one n => n.isInt
  | .many _ => false

/-- np_utils.py 56-63 `casting_to_float` -/
def castingToFloat (a : Arr) (scale offset : Factor) : Bool :=
  match a with
  | .ints _ _ => !(scale.isInt && offset.isInt)
  | _ => false

/-- `float_dtype` -/
inductive FloatType | f32 | f64

/-- `obj.astype(float_dtype)` of an integer array -/
def asFloat (E : Env) (ft : FloatType) : Arr → Arr
  | .ints _ p =>
    match ft with
    | .f32 => .f32 (p.map (·.map fun e => (some (E.R'.fl e.1), e.2)))
    | .f64 => .f64 (p.map (·.map fun e => (some (E.R.fl e.1), e.2)))
  | a => a

/-- `scale == 1` -/
def Factor.isNum (n : ℚ) : Factor → Bool
  | .one x => decide (x.val = n)
  | .many _ => false

/-- _scaling.py 162-175 in `scale_array` -/
def scaleBy (E : Env) (a : Arr) (scale offset : Factor) (inplace : Bool) (ft : Option FloatType) :
    Except PyErr (List (List FElem)) :=
  if scale.isNum 1 && offset.isNum 0 then .ok a.values
  else if inplace && !castingToFloat a scale offset then overflowWrap (inplaceScale E) a offset scale
  else
    let a' := match ft with
      | some ft => if castingToFloat a scale offset then asFloat E ft a else a
      | none => a
    overflowWrap (copyScale E) a' offset scale

/-! ### the label -/

/-- a value of a label block -/
inductive Entry
  | num (n : Num)
  | seq (ns : List Num)
  | text (s : Str)
  | quantity (value : Entry)

/-- a block: parameters and their (first) values -/
abbrev Block := Str → Option Entry

def nullTexts : List Str := [['N', 'U', 'L', 'L'], ['N', '/', 'A'], []]

/-- _scaling.py 145-161: the scaling factor (`default` 1) or offset (`default` 0) -/
def readFactor (default : Int) : Option Entry → Except PyErr Factor
  | none => .ok (.one (.int default))
  | some e =>
    match (match e with
      | .quantity v => v
      | e => e) with
    | .num n => .ok (.one n)
    | .seq ns => .ok (.many ns)
    | .text s => if upper (strip s) ∈ nullTexts then .ok (.one (.int default)) else .error .typeError
    | .quantity _ => .error .typeError

def sScale : Str := ['S', 'C', 'A', 'L', 'I', 'N', 'G', '_', 'F', 'A', 'C', 'T', 'O', 'R']
def sOffset : Str := ['O', 'F', 'F', 'S', 'E', 'T']

/-- _scaling.py 134-175 `scale_array` -/
def scaleArray (E : Env) (block : Block) (a : Arr) (inplace : Bool) (ft : Option FloatType) :
    Except PyErr (List (List FElem)) := do
  let scale ← readFactor 1 (block sScale)
  let offset ← readFactor 0 (block sOffset)
  scaleBy E a scale offset inplace ft

/-- datatypes.py 117-144 `PDS3_CONSTANT_NAMES` -/
def constantNames : List Str :=
  (["CORE_", "BAND_SUFFIX_", "SAMPLE_SUFFIX_", "LINE_SUFFIX_", ""].flatMap fun c =>
    ["HIGH_", "LOW_", ""].flatMap fun d => ["INST_", "REPR_", ""].flatMap fun e =>
      ["NULL", "SATURATION", "SAT"].map fun p => (c ++ d ++ e ++ p).toList) ++
  ["INVALID_CONSTANT", "MISSING_CONSTANT", "INFINITY_CONSTANT", "NOT_APPLICABLE_CONSTANT", "NULL_CONSTANT",
    "UNKNOWN_CONSTANT"].map String.toList

/-- _scaling.py 28-36: the constants of the label. Of a sequence the first one counts. Texts other than "N/A" and
numbers with units are not modelled (they give no constant here). -/
def constantOf (q : Str × Entry) : Except PyErr (Option (Str × ℚ)) :=
  match q.2 with
  | .num x => .ok (some (q.1, x.val))
  | .seq (x :: _) => .ok (some (q.1, x.val))
  | .seq [] => .error .indexError
  | _ => .ok none

def explicitSpecials (block : Block) : Except PyErr (List (Str × ℚ)) := do
  let found ← (constantNames.filterMap fun n => (block n).map (n, ·)).mapM constantOf
  .ok (found.filterMap id)

/-- the dtypes by name -/
inductive Kind
  | int (t : IntType)
  | float32
  | float64
deriving DecidableEq

def Arr.kind : Arr → Kind
  | .ints t _ => .int t
  | .f32 _ => .float32
  | .f64 _ => .float64

/-- a float32 number with all exponent bits but the last, `k` steps below the largest -/
def isisFloat (k : Nat) : ℚ := -((2 ^ 24 - 1 - k) * 2 ^ 104)

/-- datatypes.py 148-209 `IMPLICIT_PDS3_CONSTANTS` -/
def implicitConstants (R : Rounding double) : Kind → Option (List (Str × ℚ))
  | .int t =>
    if t = uint8 then some [("NULL".toList, 0), ("ISIS_SAT_HIGH".toList, 255)]
    else if t = int8 then some []
    else if t = int16 then some [("N/A".toList, -32768), ("UNK".toList, 32767), ("ISIS_LOW_INST_SAT".toList, -32766),
      ("ISIS_LOW_REPR_SAT".toList, -32767), ("ISIS_HIGH_INST_SAT".toList, -32765), ("ISIS_HIGH_REPR_SAT".toList, -32764)]
    else if t = uint16 then some [("NULL".toList, 0), ("N/A".toList, 65533), ("UNK".toList, 65534),
      ("ISIS_LOW_INST_SAT".toList, 2), ("ISIS_LOW_REPR_SAT".toList, 1), ("ISIS_HIGH_INST_SAT".toList, 65534),
      ("ISIS_HIGH_REPR_SAT".toList, 65535)]
    else if t = int32 then some [("N/A".toList, -214743648), ("UNK".toList, 2147483647)]
    else if t = int64 then some [("N/A".toList, -214743648), ("UNK".toList, 2147483647)]
    else if t = uint32 then some [("N/A".toList, 4294967293), ("UNK".toList, 4294967294), ("ISIS_NULL".toList, 0xFF7FFFFB),
      ("ISIS_LOW_INST_SAT".toList, 0xFF7FFFFD), ("ISIS_LOW_REPR_SAT".toList, 0xFF7FFFFC),
      ("ISIS_HIGH_INST_SAT".toList, 0xFF7FFFFE), ("ISIS_HIGH_REPR_SAT".toList, 0xFF7FFFFF)]
    else none
  | .float32 => some [("NULL".toList, isisFloat 4), ("N/A".toList, R.fl (-10 ^ 32)), ("UNK".toList, R.fl (10 ^ 32)),
      ("ISIS_LOW_INST_SAT".toList, isisFloat 2), ("ISIS_LOW_REPR_SAT".toList, isisFloat 3),
      ("ISIS_HIGH_INST_SAT".toList, isisFloat 1), ("ISIS_HIGH_REPR_SAT".toList, isisFloat 0)]
  | .float64 => some [("NULL".toList, isisFloat 4)]

/-- `constant in obj`: a Python float is brought to the dtype of the array first -/
def present (E : Env) (a : Arr) (c : ℚ) : Bool :=
  let c' := match a with
    | .f32 _ => E.R'.fl c
    | _ => c
  a.values.flatten.any fun e => decide (e.1 = some c')

/-- `d1 | d2` -/
def union (d₁ d₂ : List (Str × ℚ)) : List (Str × ℚ) :=
  d₁.filter (fun q => !(d₂.any (fun r => decide (r.1 = q.1)))) ++ d₂

/-- _scaling.py 17-52 `find_special_constants`: the values, and whether "INVALIDS" (NaN) is among them -/
def findSpecials (E : Env) (block : Block) (a : Arr) : Except PyErr (List (Str × ℚ) × Bool) := do
  let specials ← explicitSpecials block
  if a.kind = .int uint8 then .ok (specials, false)
  else
    match implicitConstants E.R a.kind with
    | none => .error .keyError
    | some possibilities =>
      .ok (union specials (possibilities.filter fun q => present E a q.2), a.values.flatten.any fun e => e.1.isNone)

/-- the mask is set where `f` says so -/
def Arr.setMask (f : Option ℚ → Bool) : Arr → Arr
  | .ints t p => .ints t (p.map (·.map fun e => (e.1, f (some (e.1 : ℚ)))))
  | .f32 p => .f32 (p.map (·.map fun e => (e.1, f e.1)))
  | .f64 p => .f64 (p.map (·.map fun e => (e.1, f e.1)))

/-- _scaling.py 55-64 `mask_specials`: `np.isin` compares exact values -/
def maskSpecials (specials : List (Str × ℚ) × Bool) (a : Arr) : Arr :=
  a.setMask fun v => (match v with
    | some x => specials.1.any fun q => decide (q.2 = x)
    | none => false) || (specials.2 && v.isNone)

inductive Standard | pds3 | pds4 | other
deriving DecidableEq

/-- pdr.py 856-900 `Data.get_scaled`, for an array that was read with `prescaled` telling whether its loader has
scaled it. PDS4 arrays: see Model/Pds4Scale. `known` is the cached result of `find_special_constants`. -/
def getScaled (E : Env) (standard : Standard) (prescaled : Bool) (block : Block) (a : Arr)
    (known : Option (List (Str × ℚ) × Bool)) (inplace : Bool) (ft : Option FloatType) : Except PyErr (List (List FElem)) :=
  if prescaled then .ok a.values
  else match standard with
    | .pds3 => do
      let specials ← match known with
        | some s => .ok s
        | none => findSpecials E block a
      let a' := if specials.1.isEmpty && !specials.2 then a else maskSpecials specials a
      scaleArray E block a' inplace ft
    | _ => .ok a.values

end Verif.Scaling
