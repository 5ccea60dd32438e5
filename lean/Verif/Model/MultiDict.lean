/-
Models of the functions that walk and edit nested multi-valued mappings:
`pdr/parselabel/pds3.py` 207-263 and 335-441, `pdr/parselabel/pds4.py` 19-63.
-/
import Verif.Model.Pvl

namespace Verif.Pvl
open Verif.Py

/-- `isinstance(value, mtypes)` (pds3.py 241). -/
def Tree.isNode {α} : Tree α → Bool
  | .leaf _ => false
  | .node _ => true

/-- What `multidict_dig_and_edit` does to a matching entry (pds3.py 259-262): `setter_function`
applied to the value or, with `key_editor`, to the key. `σ` is the state of `input_object`, which
the setter may mutate (pds3.py 434-441 pops from it); the setter may raise. -/
inductive Edit (α σ : Type) where
  | value (f : σ → Tree α → Except PyErr (Tree α × σ))
  | key (f : σ → Str → Except PyErr (Str × σ))

section
variable {α σ : Type} (pred : Str → Tree α → Bool) (edit : Edit α σ) (keep : Bool)

mutual
/-- pds3.py 240-250: the recursive call made on a value that is itself a mapping. -/
def digEditT : Tree α → σ → Except PyErr (Tree α × σ)
  | .leaf a, s => .ok (.leaf a, s)
  | .node kids, s =>
    match digEdit kids s with
    | .error e => .error e
    | .ok (kids', s') => .ok (.node kids', s')

/-- pds3.py 207-263 `multidict_dig_and_edit`. `pred` is the predicate on (key, value after
recursion); `predicate=None` is `pred k _ := k == target` (251-252). -/
def digEdit : MDict α → σ → Except PyErr (MDict α × σ)
  | [], s => .ok ([], s)
  | (k, v) :: rest, s =>
    match digEditT v s with
    | .error e => .error e
    | .ok (v', s₁) =>
      if pred k v' = false then
        match digEdit rest s₁ with
        | .error e => .error e
        | .ok (r, s₂) => if keep || v.isNode then .ok ((k, v') :: r, s₂) else .ok (r, s₂)
      else
        match edit with
        | .value f =>
          match f s₁ v' with
          | .error e => .error e
          | .ok (v'', s₂) =>
            match digEdit rest s₂ with
            | .error e => .error e
            | .ok (r, s₃) => .ok ((k, v'') :: r, s₃)
        | .key f =>
          match f s₁ k with
          | .error e => .error e
          | .ok (k', s₂) =>
            match digEdit rest s₂ with
            | .error e => .error e
            | .ok (r, s₃) => .ok ((k', v') :: r, s₃)
end
end

/-- The setter of `literalize_pvl_block` (pds3.py 335-347): a non-mapping value is passed to
`literalize_pvl` (here the parameter `f`, which may raise); a mapping is left alone. -/
def litEdit {α} (f : α → Except PyErr α) : Edit α Unit := .value (fun s v => match v with
  | .leaf a => match f a with
    | .ok b => .ok (.leaf b, s)
    | .error e => .error e
  | .node kids => .ok (.node kids, s))

/-- pds3.py 335-347 `literalize_pvl_block`: every non-mapping value is passed to `literalize_pvl`;
mappings are left alone (they were already handled by the recursion). -/
def literalizeBlock {α} (f : α → Except PyErr α) (t : MDict α) : Except PyErr (MDict α) :=
  match digEdit (fun _ v => !v.isNode) (litEdit f) true t () with
  | .ok (t', _) => .ok t'
  | .error e => .error e

mutual
/-- `digKeys` of a value: a nested mapping is searched, a leaf has no keys. -/
def digKeysT {α} (pred : Str → Bool) : Tree α → List Str
  | .leaf _ => []
  | .node kids => (kids.map Prod.fst).filter pred ++ digKeysNested pred kids
/-- second pass of `digKeys`: into the nested mappings, in order. -/
def digKeysNested {α} (pred : Str → Bool) : MDict α → List Str
  | [] => []
  | (_, t) :: rest => digKeysT pred t ++ digKeysNested pred rest
end

/-- `dustgoggles.structures.dig_for_keys(mapping, pred)` (called at pds3.py 344 and pds4.py 59):
matching keys of this level in order, then the nested mappings in order. External library, modelled
from its documentation; `None` for "nothing found" is the empty list here. -/
def digKeys {α} (pred : Str → Bool) (t : MDict α) : List Str :=
  (t.map Prod.fst).filter pred ++ digKeysNested pred t

mutual
/-- all values stored under `key` in a value, the level's own entries first -/
def digValuesT {α} (key : Str) : Tree α → List (Tree α)
  | .leaf _ => []
  | .node kids => (kids.filter (fun kv => kv.1 == key)).map Prod.snd ++ digValuesNested key kids
/-- second pass of `digValues`: into the nested mappings, in order. -/
def digValuesNested {α} (key : Str) : MDict α → List (Tree α)
  | [] => []
  | (_, t) :: rest => digValuesT key t ++ digValuesNested key rest
end

/-- `dustgoggles.structures.dig_for_values` with a key-equality predicate: every matching value of a
level in order, then those of the nested mappings in order. External library, modelled from its
documentation. -/
def digValues {α} (key : Str) (t : MDict α) : List (Tree α) :=
  (t.filter (fun kv => kv.1 == key)).map Prod.snd ++ digValuesNested key t

/-- `dustgoggles.structures.dig_for_value` with a key-equality predicate (pdr.py 1213-1231): the
first of the values. -/
def digValue {α} (key : Str) (t : MDict α) : Option (Tree α) := (digValues key t).head?

/-! ### Pointers -/

/-- pds3.py 350-362 `get_pds3_pointers` -/
def pointers {α} (t : MDict α) : List Str := digKeys (fun k => startsWith k c!"^") t

/-- pds3.py 365-367 -/
def pointerize (s : Str) : Str := if startsWith s c!"^" then s else '^' :: s

/-- pds3.py 370-372 -/
def depointerize (s : Str) : Str := if startsWith s c!"^" then s.drop 1 else s

/-- f"{key}_{ix}" -/
def indexed (key : Str) (ix : Nat) : Str := key ++ '_' :: natStr ix

/-- pds3.py 434-441 `set_key_index`: `pointer_range[0]` raises IndexError on an empty list. -/
def setKeyIndex (range : List Nat) (key : Str) : Except PyErr (Str × List Nat) :=
  match range with
  | [] => .error .indexError
  | i :: is => .ok (indexed key i, is)

/-- One call of `multidict_dig_and_edit` in `index_duplicate_pointers` (pds3.py 408-414, 420-426). -/
def renameKeys {α} (target : Str) (n : Nat) (t : MDict α) : Except PyErr (MDict α) :=
  match digEdit (σ := List Nat) (fun k _ => k == target) (.key setKeyIndex) true t (List.range n) with
  | .ok (t', _) => .ok t'
  | .error e => .error e

/-- `list.remove(x)`: drops the first occurrence, ValueError if there is none. -/
def removeFirst (x : Str) (l : List Str) : Except PyErr (List Str) :=
  if x ∈ l then .ok (l.erase x) else .error .valueError

/-- Body of `for ix in range(len(group))` (pds3.py 406-429). -/
def indexOnce {α} (pointer : Str) (n ix : Nat) (depoint : Bool) (st : MDict α × List Str) :
    Except PyErr (MDict α × List Str) :=
  match renameKeys pointer n st.1 with
  | .error e => .error e
  | .ok m₁ =>
    match removeFirst pointer (st.2 ++ [indexed pointer ix]) with
    | .error e => .error e
    | .ok ps₁ =>
      if depoint then
        let d := depointerize pointer
        match renameKeys d n m₁ with
        | .error e => .error e
        | .ok m₂ =>
          let ps₂ := ps₁ ++ [indexed d ix]
          .ok (m₂, if d ∈ ps₂ then ps₂.erase d else ps₂)
      else .ok (m₁, ps₁)

/-- the inner loop of pds3.py 406-429 -/
def indexPointer {α} (pointer : Str) (n : Nat) (depoint : Bool) :
    List Nat → MDict α × List Str → Except PyErr (MDict α × List Str)
  | [], st => .ok st
  | ix :: ixs, st =>
    match indexOnce pointer n ix depoint st with
    | .error e => .error e
    | .ok st' => indexPointer pointer n depoint ixs st'

/-- `cytoolz.groupby(identity, pointers)`: distinct values in order of first occurrence. -/
def distinct : List Str → List Str
  | [] => []
  | x :: xs => x :: (distinct xs).filter (· ≠ x)

/-- the outer loop of pds3.py 391-429 -/
def indexGroups {α} (all : List Str) : List Str → MDict α × List Str →
    Except PyErr (MDict α × List Str)
  | [], st => .ok st
  | p :: ps, st =>
    let n := all.count p
    if n > 1 && !(contains p c!"STRUCTURE" || contains p c!"PDS_OBJECT") then
      match indexPointer p n (!contains p c!"DESCRIPTION") (List.range n) st with
      | .error e => .error e
      | .ok st' => indexGroups all ps st'
    else indexGroups all ps st

/-- pds3.py 375-431 `index_duplicate_pointers(get_pds3_pointers(mapping), mapping, params)` -/
def indexDuplicatePointers {α} (t : MDict α) (params : List Str) :
    Except PyErr (MDict α × List Str) :=
  indexGroups (pointers t) (distinct (pointers t)) (t, params)

/-! ### PDS4 labels -/

/-- What `Label.to_dict()` of pds4_tools may hold: text, a list, or a nested ordered mapping. -/
inductive Packed (α : Type) where
  | leaf (a : α)
  | list (xs : List (Packed α))
  | map (kids : List (Str × Packed α))

mutual
/-- number of constructors, for termination -/
def Packed.size {α} : Packed α → Nat
  | .leaf _ => 1
  | .list xs => 1 + Packed.sizeL xs
  | .map kids => 1 + Packed.sizeM kids
/-- number of constructors, for termination -/
def Packed.sizeL {α} : List (Packed α) → Nat
  | [] => 0
  | x :: xs => x.size + Packed.sizeL xs
/-- number of constructors, for termination -/
def Packed.sizeM {α} : List (Str × Packed α) → Nat
  | [] => 0
  | (_, x) :: xs => x.size + Packed.sizeM xs
end

theorem Packed.sizeM_append {α} (a b : List (Str × Packed α)) :
    Packed.sizeM (a ++ b) = Packed.sizeM a + Packed.sizeM b := by
  induction a with
  | nil => simp [Packed.sizeM]
  | cons x a ih => simp only [List.cons_append, Packed.sizeM, ih]; omega

theorem Packed.sizeM_map {α} (k : Str) (xs : List (Packed α)) :
    Packed.sizeM (xs.map (fun x => (k, x))) = Packed.sizeL xs := by
  induction xs with
  | nil => rfl
  | cons x a ih => simp [Packed.sizeM, Packed.sizeL, ih]

theorem Packed.size_pos {α} (x : Packed α) : 0 < x.size := by
  cases x <;> simp only [Packed.size] <;> omega

/-- pds4.py 19-46 `unpack_to_multidict`. The Python work list is a stack popped at its end, filled
with reversed items; here the stack is kept in popping order, so pushing `reversed(v)` at the end is
prepending `v`. `unpacked.add` appends to the result. -/
def unpackWork {α} (items : List (Str × Packed α)) : MDict α :=
  match items with
  | [] => []
  | (k, .list xs) :: rest => unpackWork (xs.map (fun x => (k, x)) ++ rest)
  | (k, .map kids) :: rest => (k, .node (unpackWork kids)) :: unpackWork rest
  | (k, .leaf a) :: rest => (k, .leaf a) :: unpackWork rest
termination_by Packed.sizeM items
decreasing_by
  · have e : xs.attach.map (fun x => (k, x.val)) = xs.map (fun x => (k, x)) := by
      simp
    rw [Packed.sizeM_append, e, Packed.sizeM_map]
    simp only [Packed.sizeM, Packed.size]; omega
  · simp only [Packed.sizeM, Packed.size]; omega
  · simp only [Packed.sizeM, Packed.size]; omega
  · simp only [Packed.sizeM, Packed.size]; omega

/-- pds4.py 50-63 `reformat_pds4_tools_label`: the unpacked label and all keys at all levels. -/
def reformatLabel {α} (items : List (Str × Packed α)) : MDict α × List Str :=
  let u := unpackWork items
  (u, digKeys (fun _ => true) u)

end Verif.Pvl
