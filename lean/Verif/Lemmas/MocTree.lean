/-
Huffman trees of MOC images: the kernel computes the trees of the eight codes and checks them.
-/
import Verif.Model.Moc
import Verif.Spec.Moc
import Mathlib.Tactic.Ring
import Mathlib.Tactic.Linarith
import Mathlib.Tactic.ByContra

namespace Verif.Moc
open Verif Verif.Py Verif.Moc.Spec

/-! ### trees -/

/-- number of inner nodes -/
def Node.inner : Node → Nat
  | .none => 0
  | .node _ .none .none => 0
  | .node _ z o => 1 + z.inner + o.inner

/-- the value reached with exactly these bits -/
def Node.find : Node → List Bool → Option Nat
  | .node v .none .none, [] => some v
  | .node _ z o, b :: bs => if b then o.find bs else z.find bs
  | _, _ => Option.none

/-- every inner node has both children, every leaf a byte -/
def Node.full : Node → Bool
  | .none => false
  | .node v .none .none => decide (v < 256)
  | .node _ z o => z.full && o.full

/-- the bits of a codeword given as a number, lowest first -/
def bitsOf (code len : Nat) : List Bool := (List.range len).map fun i => code.testBit i

def checkCode (b l r : List Nat) (tree : Node) : Bool :=
  tree.full && decide (0 < tree.inner) && decide (tree.inner ≤ 256) && decide (b.length = 256) && decide (l.length = 256) &&
    decide (r.length = 256) &&
    (r.zip (b.zip l)).all fun e =>
      decide (tree.find (bitsOf e.2.1 e.2.2) = some e.1) && decide (0 < e.2.2) && decide (e.1 < 256)

theorem check0 : checkCode code0Bits code0Len codeIdentRequant (htTreeGen code0Bits code0Len codeIdentRequant) = true := by decide +kernel
theorem check1 : checkCode code1Bits code1Len codeIdentRequant (htTreeGen code1Bits code1Len codeIdentRequant) = true := by decide +kernel
theorem check2 : checkCode code2Bits code2Len codeIdentRequant (htTreeGen code2Bits code2Len codeIdentRequant) = true := by decide +kernel
theorem check3 : checkCode code3Bits code3Len codeIdentRequant (htTreeGen code3Bits code3Len codeIdentRequant) = true := by decide +kernel
theorem check4 : checkCode code4Bits code4Len codeIdentRequant (htTreeGen code4Bits code4Len codeIdentRequant) = true := by decide +kernel
theorem check5 : checkCode code5Bits code5Len codeIdentRequant (htTreeGen code5Bits code5Len codeIdentRequant) = true := by decide +kernel
theorem check6 : checkCode code6Bits code6Len codeIdentRequant (htTreeGen code6Bits code6Len codeIdentRequant) = true := by decide +kernel
theorem check7 : checkCode code7Bits code7Len code7Requant (htTreeGen code7Bits code7Len code7Requant) = true := by decide +kernel

theorem codes_check : ∀ c ∈ codeTables, checkCode c.1 c.2.1 c.2.2 (htTreeGen c.1 c.2.1 c.2.2) = true := by
  intro c hc
  simp only [codeTables, List.mem_cons, List.not_mem_nil, or_false] at hc
  rcases hc with rfl | rfl | rfl | rfl | rfl | rfl | rfl | rfl
  · exact check0
  · exact check1
  · exact check2
  · exact check3
  · exact check4
  · exact check5
  · exact check6
  · exact check7

/-- one entry of the tables -/
theorem check_entry {b l r : List Nat} {tree : Node} (h : checkCode b l r tree = true) :
    tree.full = true ∧ 0 < tree.inner ∧ tree.inner ≤ 256 ∧
    ∀ s, s < 256 → tree.find (codeword b l s) = some (r.getD s 0) ∧ 0 < (codeword b l s).length ∧ r.getD s 0 < 256 := by
  unfold checkCode at h
  simp only [Bool.and_eq_true, decide_eq_true_eq, List.all_eq_true] at h
  obtain ⟨⟨⟨⟨⟨⟨h1, h2⟩, h3⟩, hb⟩, hl⟩, hr⟩, h4⟩ := h
  refine ⟨h1, h2, h3, fun s hs => ?_⟩
  have hlen : s < (r.zip (b.zip l)).length := by simp [hb, hl, hr, hs]
  have := h4 _ (List.getElem_mem hlen)
  simp only [List.getElem_zip] at this
  have e1 : r.getD s 0 = r[s]'(by omega) := by simp [List.getD_eq_getElem?_getD, List.getElem?_eq_getElem (show s < r.length by omega)]
  have e2 : b.getD s 0 = b[s]'(by omega) := by simp [List.getD_eq_getElem?_getD, List.getElem?_eq_getElem (show s < b.length by omega)]
  have e3 : l.getD s 0 = l[s]'(by omega) := by simp [List.getD_eq_getElem?_getD, List.getElem?_eq_getElem (show s < l.length by omega)]
  unfold codeword
  rw [e1, e2, e3]
  exact ⟨this.1.1, by simpa using this.1.2, this.2⟩

end Verif.Moc
