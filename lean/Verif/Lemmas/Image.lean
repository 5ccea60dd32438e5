import Verif.Spec.Image

namespace Verif.Image
open Verif.Py Verif.Bits Verif.Image.Spec

theorem reshape_ofList {α : Type} (l : List α) (f : α → α) (sh : List Nat) (h : l.length = prod sh) :
    ((Arr.ofList l).map f).reshape sh = .ok ⟨sh, fun idx => (l[ravel sh idx]?).map f⟩ := by
  unfold Arr.reshape Arr.map Arr.ofList
  rw [if_pos (by simp [prod, h])]
  congr 1
  simp [unravel, prod]

/-- the array shows `F`, shifted by `o`, with dimensions `d` -/
def View3 {α : Type} (A : Arr α) (F : Nat → Nat → Nat → Option α) (d0 d1 d2 o0 o1 o2 : Nat) : Prop :=
  A.shape = [d0, d1, d2] ∧ ∀ i j k, A.get [i, j, k] = F (i + o0) (j + o1) (k + o2)

theorem clampIx_neg (n c : Nat) (hc : 0 < c) : clampIx n (-(c : Int)) = n - c := by
  unfold clampIx
  rw [if_pos (by omega)]
  omega

theorem clampIx_nat (n c : Nat) : clampIx n (c : Int) = min c n := by
  unfold clampIx
  rw [if_neg (by omega)]
  simp

theorem step_prefix0 {α : Type} {A : Arr α} {F} {d0 d1 d2 o0 o1 o2 : Nat} {ps : List (Arr α)} (c : Option Nat)
    (h : View3 A F d0 d1 d2 o0 o1 o2) (hc : c.getD 0 ≤ d0) :
    View3 (axplaneStep false 0 c (A, ps)).1 F (d0 - c.getD 0) d1 d2 (o0 + c.getD 0) o1 o2 := by
  obtain ⟨hs, hg⟩ := h
  cases c with
  | none => exact ⟨hs, hg⟩
  | some c =>
    simp only [axplaneStep, hs, Arr.slice]
    simp only [Option.getD_some] at hc
    refine ⟨?_, ?_⟩
    · simp [clampIx_nat, Nat.min_eq_left hc]
    · intro i j k
      simp [clampIx_nat, Nat.min_eq_left hc, hg, Nat.add_assoc, Nat.add_comm c]

theorem step_prefix1 {α : Type} {A : Arr α} {F} {d0 d1 d2 o0 o1 o2 : Nat} {ps : List (Arr α)} (c : Option Nat)
    (h : View3 A F d0 d1 d2 o0 o1 o2) (hc : c.getD 0 ≤ d1) :
    View3 (axplaneStep false 1 c (A, ps)).1 F d0 (d1 - c.getD 0) d2 o0 (o1 + c.getD 0) o2 := by
  obtain ⟨hs, hg⟩ := h
  cases c with
  | none => exact ⟨hs, hg⟩
  | some c =>
    simp only [axplaneStep, hs, Arr.slice]
    simp only [Option.getD_some] at hc
    refine ⟨?_, ?_⟩
    · simp [clampIx_nat, Nat.min_eq_left hc]
    · intro i j k
      simp [clampIx_nat, Nat.min_eq_left hc, hg, Nat.add_assoc, Nat.add_comm c]

theorem step_prefix2 {α : Type} {A : Arr α} {F} {d0 d1 d2 o0 o1 o2 : Nat} {ps : List (Arr α)} (c : Option Nat)
    (h : View3 A F d0 d1 d2 o0 o1 o2) (hc : c.getD 0 ≤ d2) :
    View3 (axplaneStep false 2 c (A, ps)).1 F d0 d1 (d2 - c.getD 0) o0 o1 (o2 + c.getD 0) := by
  obtain ⟨hs, hg⟩ := h
  cases c with
  | none => exact ⟨hs, hg⟩
  | some c =>
    simp only [axplaneStep, hs, Arr.slice]
    simp only [Option.getD_some] at hc
    refine ⟨?_, ?_⟩
    · simp [clampIx_nat, Nat.min_eq_left hc]
    · intro i j k
      simp [clampIx_nat, Nat.min_eq_left hc, hg, Nat.add_assoc, Nat.add_comm c]

theorem step_suffix0 {α : Type} {A : Arr α} {F} {d0 d1 d2 o0 o1 o2 : Nat} {ps : List (Arr α)} (c : Option Nat)
    (h : View3 A F d0 d1 d2 o0 o1 o2) (hc : c ≠ some 0) :
    View3 (axplaneStep true 0 c (A, ps)).1 F (d0 - c.getD 0) d1 d2 o0 o1 o2 := by
  obtain ⟨hs, hg⟩ := h
  cases c with
  | none => exact ⟨hs, hg⟩
  | some c =>
    have hc' : 0 < c := Nat.pos_of_ne_zero (fun h => hc (by rw [h]))
    simp only [axplaneStep, hs, Arr.slice]
    refine ⟨?_, ?_⟩
    · simp [clampIx_neg _ _ hc']
    · intro i j k
      simp [hg]

theorem step_suffix1 {α : Type} {A : Arr α} {F} {d0 d1 d2 o0 o1 o2 : Nat} {ps : List (Arr α)} (c : Option Nat)
    (h : View3 A F d0 d1 d2 o0 o1 o2) (hc : c ≠ some 0) :
    View3 (axplaneStep true 1 c (A, ps)).1 F d0 (d1 - c.getD 0) d2 o0 o1 o2 := by
  obtain ⟨hs, hg⟩ := h
  cases c with
  | none => exact ⟨hs, hg⟩
  | some c =>
    have hc' : 0 < c := Nat.pos_of_ne_zero (fun h => hc (by rw [h]))
    simp only [axplaneStep, hs, Arr.slice]
    refine ⟨?_, ?_⟩
    · simp [clampIx_neg _ _ hc']
    · intro i j k
      simp [hg]

theorem step_suffix2 {α : Type} {A : Arr α} {F} {d0 d1 d2 o0 o1 o2 : Nat} {ps : List (Arr α)} (c : Option Nat)
    (h : View3 A F d0 d1 d2 o0 o1 o2) (hc : c ≠ some 0) :
    View3 (axplaneStep true 2 c (A, ps)).1 F d0 d1 (d2 - c.getD 0) o0 o1 o2 := by
  obtain ⟨hs, hg⟩ := h
  cases c with
  | none => exact ⟨hs, hg⟩
  | some c =>
    have hc' : 0 < c := Nat.pos_of_ne_zero (fun h => hc (by rw [h]))
    simp only [axplaneStep, hs, Arr.slice]
    refine ⟨?_, ?_⟩
    · simp [clampIx_neg _ _ hc']
    · intro i j k
      simp [hg]

theorem extractAxplanes_view3 {α : Type} {A : Arr α} {F} {p : Props} (hp : PlanesOk p)
    (h : View3 A F (p.nbands + p.bandpad) (p.nrows + p.rowpad) (p.ncols + p.colpad) 0 0 0) :
    View3 (extractAxplanes A p).1 F p.nbands p.nrows p.ncols
      (p.prefixBands.getD 0) (p.prefixRows.getD 0) (p.prefixCols.getD 0) := by
  have hr := hp.rows
  have hc := hp.cols
  have hb := hp.bands
  obtain ⟨n1, n2, n3⟩ := hp.nonzero
  have s1 := step_prefix1 (ps := []) p.prefixRows h (by omega)
  have s2 := step_prefix2 (ps := (axplaneStep false 1 p.prefixRows (A, [])).2) p.prefixCols s1 (by omega)
  have s3 := step_prefix0 (ps := (axplaneStep false 2 p.prefixCols (axplaneStep false 1 p.prefixRows (A, []))).2)
    p.prefixBands s2 (by omega)
  have s4 := step_suffix1 (ps := (axplaneStep false 0 p.prefixBands (axplaneStep false 2 p.prefixCols
    (axplaneStep false 1 p.prefixRows (A, [])))).2) p.suffixRows s3 n1
  have s5 := step_suffix2 (ps := (axplaneStep true 1 p.suffixRows (axplaneStep false 0 p.prefixBands
    (axplaneStep false 2 p.prefixCols (axplaneStep false 1 p.prefixRows (A, []))))).2) p.suffixCols s4 n2
  have s6 := step_suffix0 (ps := (axplaneStep true 2 p.suffixCols (axplaneStep true 1 p.suffixRows
    (axplaneStep false 0 p.prefixBands (axplaneStep false 2 p.prefixCols
    (axplaneStep false 1 p.prefixRows (A, [])))))).2) p.suffixBands s5 n3
  obtain ⟨g1, g2⟩ := s6
  refine ⟨?_, ?_⟩
  · refine Eq.trans g1 ?_
    congr 1
    · omega
    · congr 1
      · omega
      · congr 1
        omega
  · intro i j k
    refine (g2 i j k).trans ?_
    simp

/-- the 2-D array shows `F`, shifted by `o`, with dimensions `d` -/
def View2 {α : Type} (A : Arr α) (F : Nat → Nat → Option α) (d1 d2 o1 o2 : Nat) : Prop :=
  A.shape = [d1, d2] ∧ ∀ j k, A.get [j, k] = F (j + o1) (k + o2)

theorem step2_band {α : Type} {A : Arr α} {F} {d1 d2 o1 o2 : Nat} {ps : List (Arr α)} (sfx : Bool)
    (c : Option Nat) (h : View2 A F d1 d2 o1 o2) :
    View2 (axplaneStep sfx 0 c (A, ps)).1 F d1 d2 o1 o2 := by
  cases c with
  | none => exact h
  | some c => simp only [axplaneStep, h.1]; exact h

theorem step2_prefix1 {α : Type} {A : Arr α} {F} {d1 d2 o1 o2 : Nat} {ps : List (Arr α)} (c : Option Nat)
    (h : View2 A F d1 d2 o1 o2) (hc : c.getD 0 ≤ d1) :
    View2 (axplaneStep false 1 c (A, ps)).1 F (d1 - c.getD 0) d2 (o1 + c.getD 0) o2 := by
  obtain ⟨hs, hg⟩ := h
  cases c with
  | none => exact ⟨hs, hg⟩
  | some c =>
    simp only [axplaneStep, hs, Arr.slice]
    simp only [Option.getD_some] at hc
    refine ⟨?_, ?_⟩
    · simp [clampIx_nat, Nat.min_eq_left hc]
    · intro j k
      simp [clampIx_nat, Nat.min_eq_left hc, hg, Nat.add_assoc, Nat.add_comm c]

theorem step2_prefix2 {α : Type} {A : Arr α} {F} {d1 d2 o1 o2 : Nat} {ps : List (Arr α)} (c : Option Nat)
    (h : View2 A F d1 d2 o1 o2) (hc : c.getD 0 ≤ d2) :
    View2 (axplaneStep false 2 c (A, ps)).1 F d1 (d2 - c.getD 0) o1 (o2 + c.getD 0) := by
  obtain ⟨hs, hg⟩ := h
  cases c with
  | none => exact ⟨hs, hg⟩
  | some c =>
    simp only [axplaneStep, hs, Arr.slice]
    simp only [Option.getD_some] at hc
    refine ⟨?_, ?_⟩
    · simp [clampIx_nat, Nat.min_eq_left hc]
    · intro j k
      simp [clampIx_nat, Nat.min_eq_left hc, hg, Nat.add_assoc, Nat.add_comm c]

theorem step2_suffix1 {α : Type} {A : Arr α} {F} {d1 d2 o1 o2 : Nat} {ps : List (Arr α)} (c : Option Nat)
    (h : View2 A F d1 d2 o1 o2) (hc : c ≠ some 0) :
    View2 (axplaneStep true 1 c (A, ps)).1 F (d1 - c.getD 0) d2 o1 o2 := by
  obtain ⟨hs, hg⟩ := h
  cases c with
  | none => exact ⟨hs, hg⟩
  | some c =>
    have hc' : 0 < c := Nat.pos_of_ne_zero (fun h => hc (by rw [h]))
    simp only [axplaneStep, hs, Arr.slice]
    refine ⟨?_, ?_⟩
    · simp [clampIx_neg _ _ hc']
    · intro j k
      simp [hg]

theorem step2_suffix2 {α : Type} {A : Arr α} {F} {d1 d2 o1 o2 : Nat} {ps : List (Arr α)} (c : Option Nat)
    (h : View2 A F d1 d2 o1 o2) (hc : c ≠ some 0) :
    View2 (axplaneStep true 2 c (A, ps)).1 F d1 (d2 - c.getD 0) o1 o2 := by
  obtain ⟨hs, hg⟩ := h
  cases c with
  | none => exact ⟨hs, hg⟩
  | some c =>
    have hc' : 0 < c := Nat.pos_of_ne_zero (fun h => hc (by rw [h]))
    simp only [axplaneStep, hs, Arr.slice]
    refine ⟨?_, ?_⟩
    · simp [clampIx_neg _ _ hc']
    · intro j k
      simp [hg]

theorem extractAxplanes_view2 {α : Type} {A : Arr α} {F} {p : Props}
    (hr : p.rowpad = p.prefixRows.getD 0 + p.suffixRows.getD 0)
    (hc : p.colpad = p.prefixCols.getD 0 + p.suffixCols.getD 0)
    (n1 : p.suffixRows ≠ some 0) (n2 : p.suffixCols ≠ some 0)
    (h : View2 A F (p.nrows + p.rowpad) (p.ncols + p.colpad) 0 0) :
    View2 (extractAxplanes A p).1 F p.nrows p.ncols (p.prefixRows.getD 0) (p.prefixCols.getD 0) := by
  have s1 := step2_prefix1 (ps := []) p.prefixRows h (by omega)
  have s2 := step2_prefix2 (ps := (axplaneStep false 1 p.prefixRows (A, [])).2) p.prefixCols s1 (by omega)
  have s3 := step2_band (ps := (axplaneStep false 2 p.prefixCols (axplaneStep false 1 p.prefixRows (A, []))).2)
    false p.prefixBands s2
  have s4 := step2_suffix1 (ps := (axplaneStep false 0 p.prefixBands (axplaneStep false 2 p.prefixCols
    (axplaneStep false 1 p.prefixRows (A, [])))).2) p.suffixRows s3 n1
  have s5 := step2_suffix2 (ps := (axplaneStep true 1 p.suffixRows (axplaneStep false 0 p.prefixBands
    (axplaneStep false 2 p.prefixCols (axplaneStep false 1 p.prefixRows (A, []))))).2) p.suffixCols s4 n2
  have s6 := step2_band (ps := (axplaneStep true 2 p.suffixCols (axplaneStep true 1 p.suffixRows
    (axplaneStep false 0 p.prefixBands (axplaneStep false 2 p.prefixCols
    (axplaneStep false 1 p.prefixRows (A, [])))))).2) true p.suffixBands s5
  obtain ⟨g1, g2⟩ := s6
  refine ⟨?_, ?_⟩
  · refine Eq.trans g1 ?_
    congr 1
    · omega
    · congr 1
      omega
  · intro j k
    refine (g2 j k).trans ?_
    simp

/-- cutting line suffix then line prefix off a 2-D array -/
theorem cut_view2 {α : Type} {A : Arr α} {F} {R W : Nat} (pre suf : Nat)
    (h : View2 A F R W 0 0) (hW : pre + suf ≤ W) :
    View2 (if 0 < pre then
        (if 0 < suf then A.slice 1 none (some (-(suf : Int))) else A).slice 1 (some (pre : Int)) none
      else (if 0 < suf then A.slice 1 none (some (-(suf : Int))) else A)) F R (W - pre - suf) 0 pre := by
  have h1 : View2 (if 0 < suf then A.slice 1 none (some (-(suf : Int))) else A) F R (W - suf) 0 0 := by
    by_cases hs : 0 < suf
    · rw [if_pos hs]
      refine ⟨?_, ?_⟩
      · simp [Arr.slice, h.1, clampIx_neg _ _ hs]
      · intro j k; simp [Arr.slice, h.2]
    · rw [if_neg hs]
      have : suf = 0 := by omega
      subst this; exact h
  generalize (if 0 < suf then A.slice 1 none (some (-(suf : Int))) else A) = B at h1
  by_cases hp : 0 < pre
  · rw [if_pos hp]
    have hm : min pre (W - suf) = pre := by omega
    refine ⟨?_, ?_⟩
    · simp only [Arr.slice, h1.1]
      simp [clampIx_nat, hm]
      omega
    · intro j k
      simp only [Arr.slice, h1.1]
      simp [clampIx_nat, hm, h1.2]
  · rw [if_neg hp]
    have : pre = 0 := by omega
    subst this
    simpa using h1

theorem unravel2 (R C l s : Nat) (hs : s < C) : unravel [R, C] (l * C + s) = [l, s] := by
  simp only [unravel, prod, Nat.mul_one, Nat.div_one]
  have hC : 0 < C := by omega
  congr 1
  · rw [Nat.mul_comm l C, Nat.mul_add_div hC, Nat.div_eq_of_lt hs]; rfl
  · congr 1
    rw [Nat.mul_comm l C, Nat.mul_add_mod, Nat.mod_eq_of_lt hs]

end Verif.Image
