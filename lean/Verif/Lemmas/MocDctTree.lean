/-
Trees of the eight codes of MOC transform compression: the kernel computes and checks them.
-/
import Verif.Model.MocDct
import Verif.Spec.MocDct

namespace Verif.Moc
open Verif Verif.Py Verif.Moc.Spec

/-- the value reached with exactly these bits -/
def Tree.find : Tree → List Bool → Option Int
  | .leaf v, [] => some v
  | .node z o, b :: bs => if b then o.find bs else z.find bs
  | _, _ => none

def goodTree (size : Nat) (len code : List Nat) : Except PyErr Tree → Bool
  | .error _ => false
  | .ok t =>
    decide (len.length = size) && decide (code.length = size) &&
      ((List.range size).zip (len.zip code)).all fun e =>
        decide (t.find ((List.range e.2.1).map fun i => e.2.2.testBit i) = some (entryValue size e.1))

theorem tree0 : goodTree 25 num0 dct0 (codeTree 25 dct0) = true := by decide +kernel
theorem tree1 : goodTree 47 num1 dct1 (codeTree 47 dct1) = true := by decide +kernel
theorem tree2 : goodTree 69 num2 dct2 (codeTree 69 dct2) = true := by decide +kernel
theorem tree3 : goodTree 109 num3 dct3 (codeTree 109 dct3) = true := by decide +kernel
theorem tree4 : goodTree 169 num4 dct4 (codeTree 169 dct4) = true := by decide +kernel
theorem tree5 : goodTree 247 num5 dct5 (codeTree 247 dct5) = true := by decide +kernel
theorem tree6 : goodTree 395 num6 dct6 (codeTree 395 dct6) = true := by decide +kernel
theorem tree7 : goodTree 609 num7 dct7 (codeTree 609 dct7) = true := by decide +kernel

theorem good_iff {size : Nat} {len code : List Nat} {r : Except PyErr Tree} (h : goodTree size len code r = true) :
    ∃ t, r = .ok t ∧ ∀ n, n < size → t.find (codeword code len n) = some (entryValue size n) := by
  cases r with
  | error e => simp [goodTree] at h
  | ok t =>
    refine ⟨t, rfl, fun n hn => ?_⟩
    simp only [goodTree, Bool.and_eq_true, decide_eq_true_eq, List.all_eq_true] at h
    obtain ⟨⟨h1, h2⟩, h3⟩ := h
    have hlen : n < ((List.range size).zip (len.zip code)).length := by simp [h1, h2, hn]
    have := h3 _ (List.getElem_mem hlen)
    simp only [List.getElem_zip, List.getElem_range] at this
    unfold codeword
    simpa [List.getD_eq_getElem?_getD, h1, h2, hn] using this

/-- the eight trees, and that they have the codewords of the tables -/
theorem trees_ok : ∃ trees, initBlock = .ok trees ∧ trees.length = 8 ∧ ∀ v, v < 8 → ∃ t, trees[v]? = some t ∧
    ∀ n, n < (codeOf v).1 → t.find (codeword (codeOf v).2.2 (codeOf v).2.1 n) = some (entryValue (codeOf v).1 n) := by
  obtain ⟨t0, e0, g0⟩ := good_iff tree0
  obtain ⟨t1, e1, g1⟩ := good_iff tree1
  obtain ⟨t2, e2, g2⟩ := good_iff tree2
  obtain ⟨t3, e3, g3⟩ := good_iff tree3
  obtain ⟨t4, e4, g4⟩ := good_iff tree4
  obtain ⟨t5, e5, g5⟩ := good_iff tree5
  obtain ⟨t6, e6, g6⟩ := good_iff tree6
  obtain ⟨t7, e7, g7⟩ := good_iff tree7
  refine ⟨[t0, t1, t2, t3, t4, t5, t6, t7], ?_, rfl, ?_⟩
  · have hd : dctCodes = [(25, num0, dct0), (47, num1, dct1), (69, num2, dct2), (109, num3, dct3), (169, num4, dct4),
        (247, num5, dct5), (395, num6, dct6), (609, num7, dct7)] := rfl
    rw [initBlock, hd]
    simp only [List.mapM_cons, List.mapM_nil, e0, e1, e2, e3, e4, e5, e6, e7]
    rfl
  · intro v hv
    have : v = 0 ∨ v = 1 ∨ v = 2 ∨ v = 3 ∨ v = 4 ∨ v = 5 ∨ v = 6 ∨ v = 7 := by omega
    rcases this with rfl | rfl | rfl | rfl | rfl | rfl | rfl | rfl
    · exact ⟨t0, rfl, g0⟩
    · exact ⟨t1, rfl, g1⟩
    · exact ⟨t2, rfl, g2⟩
    · exact ⟨t3, rfl, g3⟩
    · exact ⟨t4, rfl, g4⟩
    · exact ⟨t5, rfl, g5⟩
    · exact ⟨t6, rfl, g6⟩
    · exact ⟨t7, rfl, g7⟩

end Verif.Moc
