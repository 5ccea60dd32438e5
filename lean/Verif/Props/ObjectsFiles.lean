/-
C80: the frames of image files.
-/
import Verif.Spec.Objects
import Verif.Lemmas.Literal
import Verif.Lemmas.Pds4Names
import Verif.Props.Files

namespace Verif.Objects
open Verif.Py Verif.Literal.Spec

theorem digitChar_ok (d : Nat) (h : d < 10) : DigitOf (Nat.digitChar d) d := by
  left
  refine ⟨h, ?_⟩
  have : ∀ d < 10, (Nat.digitChar d).toNat = '0'.toNat + d := by decide
  exact this d h

theorem value_snoc (b : Nat) (ds : List Nat) (d : Nat) : value b (ds ++ [d]) = value b ds * b + d := by
  induction ds with
  | nil => simp [value]
  | cons x xs ih =>
    simp only [List.cons_append, value, ih, List.length_append, List.length_singleton, pow_succ]
    ring

/-- numbers are written as numerals -/
theorem natStr_numeral (n : Nat) : Numeral 10 (natStr n) n := by
  unfold natStr
  induction n using Nat.strongRecOn with
  | ind n ih =>
    by_cases h : n < 10
    · rw [Nat.toDigits_of_lt_base h]
      exact ⟨[n], .cons (digitChar_ok n h) .nil, by simp, by simpa using h, by simp [value]⟩
    · rw [Nat.toDigits_of_base_le (by omega) (by omega)]
      obtain ⟨ds, h1, h2, h3, h4⟩ := ih (n / 10) (by omega)
      refine ⟨ds ++ [n % 10], List.rel_append h1 (.cons (digitChar_ok _ (by omega)) .nil), by simp, ?_, ?_⟩
      · intro d hd
        rcases List.mem_append.1 hd with hd | hd
        · exact h3 d hd
        · rw [List.mem_singleton.1 hd]
          omega
      · rw [value_snoc, h4]
        omega

theorem pyInt_natStr (n : Nat) : Literal.pyInt (natStr n) 10 = some (n : Int) :=
  Literal.pyInt_ok (.inl ⟨n, natStr_numeral n, rfl⟩) (by decide) (by decide)

theorem last_part (a : Str) (n : Nat) : (splitOn '_' (a ++ '_' :: natStr n)).getLastD [] = natStr n := by
  rw [Files.splitOn_append_gen, splitOn_notMem '_' (natStr n) (fun h => absurd (Pds4Table.natStr_digit h) (by decide))]
  simp

theorem frameOf_number (f : Format) (n : Nat) (hn : n ≠ 1) (a : Str) (i : Nat) :
    frameOf f n (a ++ '_' :: natStr i) = .ok (some (i : Int)) := by
  have hne : decide (a ++ '_' :: natStr i = c!"IMAGE") = false := by
    rw [decide_eq_false_iff_not]
    intro h
    have : '_' ∈ c!"IMAGE" := by
      rw [← h]
      simp
    revert this
    decide
  unfold frameOf
  rw [if_neg hn, hne, last_part, pyInt_natStr]
  cases f <;> rfl

theorem pictures_at (k : Nat) (ts : List Str) (i : Nat) (name : Str) (h : (pictureNames k ts)[i]? = some name) :
    ∃ t, name = typeName t ++ '_' :: natStr (k + i + 1) := by
  induction ts generalizing k i with
  | nil => cases h
  | cons t ts ih =>
    cases i with
    | zero =>
      refine ⟨t, ?_⟩
      have : typeName t ++ c!"_" ++ natStr (k + 1) = name := by simpa [pictureNames] using h
      rw [← this]
      simp
    | succ i =>
      obtain ⟨u, hu⟩ := ih (k + 1) i h
      refine ⟨u, ?_⟩
      rw [hu]
      congr 3
      omega

theorem pictures_length (k : Nat) (ts : List Str) : (pictureNames k ts).length = ts.length := by
  induction ts generalizing k with
  | nil => rfl
  | cons t ts ih => simp [pictureNames, ih]

/-- **C80**: The names that are made up for the frames (or pictures) of an image file are different, there is one for each, and for
each of them the frame (picture) at its place in the list is read; a file with one frame has the one object IMAGE, for which the frame
that is there is read. -/
theorem C80_frames (f : Format) (n : Nat) (names : List Str) (h : frameNames f n = .ok names) :
    names.Nodup ∧
    (n = 1 → names = [c!"IMAGE"] ∧ frameOf f n c!"IMAGE" = .ok none) ∧
    (n ≠ 1 → (∀ (i : Nat) (name : Str), names[i]? = some name → frameOf f n name = .ok (some (i : Int))) ∧
      names.length = (match f with | .frames => n | .mpo types => types.length | .other => 0)) := by
  by_cases hn : n = 1
  · unfold frameNames at h
    rw [if_pos hn] at h
    cases h
    refine ⟨by simp, fun _ => ⟨rfl, ?_⟩, fun h => absurd hn h⟩
    unfold frameOf
    rw [if_pos hn]
  · have key : (∀ (i : Nat) (name : Str), names[i]? = some name → frameOf f n name = .ok (some (i : Int))) ∧
      names.length = (match f with | .frames => n | .mpo types => types.length | .other => 0) := by
      unfold frameNames at h
      rw [if_neg hn] at h
      cases f with
      | frames =>
        cases h
        refine ⟨?_, by simp⟩
        intro i name hi
        rw [List.getElem?_map, Option.map_eq_some_iff] at hi
        obtain ⟨j, hj, rfl⟩ := hi
        obtain ⟨_, rfl⟩ := List.getElem?_eq_some_iff.1 hj
        rw [List.getElem_range]
        exact frameOf_number .frames n hn c!"FRAME" i
      | mpo types =>
        cases types with
        | nil => cases h
        | cons first rest =>
          simp only at h
          split at h
          · cases h
          cases h
          refine ⟨?_, by simp [pictures_length]⟩
          intro i name hi
          cases i with
          | zero =>
            obtain rfl : c!"IMAGE" = name := by simpa using hi
            unfold frameOf
            rw [if_neg hn]
            rfl
          | succ i =>
            obtain ⟨t, rfl⟩ := pictures_at 0 rest i name (by simpa using hi)
            rw [frameOf_number _ n hn]
            congr 2
            omega
      | other => cases h
    refine ⟨?_, fun h => absurd h hn, fun _ => key⟩
    rw [List.nodup_iff_getElem?_ne_getElem?]
    intro i j hij hj
    obtain ⟨name, hname⟩ : ∃ name, names[j]? = some name := ⟨_, List.getElem?_eq_getElem hj⟩
    intro heq
    have h1 := key.1 i name (heq.trans hname)
    have h2 := key.1 j name hname
    rw [h1] at h2
    have : (i : Int) = j := by simpa using h2
    omega

theorem pictures_names (k : Nat) (ts : List Str) (i : Nat) (name : Str) (h : (pictureNames k ts)[i]? = some name) :
    ∃ t, ts[i]? = some t ∧ name = t.map (fun c => if c ∈ ['(', ')', ' '] then '_' else c) ++ c!"_" ++ natStr (k + i + 1) := by
  induction ts generalizing k i with
  | nil => cases h
  | cons t ts ih =>
    cases i with
    | zero =>
      refine ⟨t, rfl, ?_⟩
      have : typeName t ++ c!"_" ++ natStr (k + 1) = name := by simpa [pictureNames] using h
      rw [← this]
      congr 2
      unfold typeName
      exact List.map_congr_left (fun c _ => by simp)
    | succ i =>
      obtain ⟨u, hu, hn⟩ := ih (k + 1) i h
      refine ⟨u, hu, ?_⟩
      rw [hn]
      congr 2
      omega

/-- **C80** (the names): FRAME_ and the number; for the pictures of an MPO file IMAGE, then the type of the picture, with `_` for
parentheses and spaces, and its number. -/
theorem C80_names (f : Format) (n : Nat) (hn : n ≠ 1) (names : List Str) (h : frameNames f n = .ok names) (i : Nat) (name : Str)
    (hi : names[i]? = some name) :
    (f = .frames ∧ name = c!"FRAME_" ++ natStr i) ∨
    (∃ types, f = .mpo types ∧ i = 0 ∧ name = c!"IMAGE") ∨
    (∃ types t, f = .mpo types ∧ i ≠ 0 ∧ types[i]? = some t ∧
      name = t.map (fun c => if c ∈ ['(', ')', ' '] then '_' else c) ++ c!"_" ++ natStr i) := by
  unfold frameNames at h
  rw [if_neg hn] at h
  cases f with
  | frames =>
    cases h
    left
    rw [List.getElem?_map, Option.map_eq_some_iff] at hi
    obtain ⟨j, hj, rfl⟩ := hi
    obtain ⟨_, rfl⟩ := List.getElem?_eq_some_iff.1 hj
    rw [List.getElem_range]
    exact ⟨rfl, rfl⟩
  | mpo types =>
    right
    cases types with
    | nil => cases h
    | cons first rest =>
      simp only at h
      split at h
      · cases h
      cases h
      cases i with
      | zero => exact .inl ⟨_, rfl, rfl, by simpa using hi.symm⟩
      | succ i =>
        obtain ⟨t, ht, hname⟩ := pictures_names 0 rest i name (by simpa using hi)
        rw [Nat.zero_add] at hname
        exact .inr ⟨_, t, rfl, by omega, by simpa using ht, hname⟩
  | other => cases h

example : frameNames .frames 3 = .ok [c!"FRAME_0", c!"FRAME_1", c!"FRAME_2"] ∧ frameOf .frames 3 c!"FRAME_2" = .ok (some 2) := by
  refine ⟨by decide +kernel, by decide +kernel⟩

example : frameNames (.mpo [c!"Baseline MP Primary Image", c!"Large Thumbnail (VGA)"]) 2 = .ok [c!"IMAGE", c!"Large_Thumbnail__VGA__1"] ∧
    frameOf (.mpo [c!"Baseline MP Primary Image", c!"Large Thumbnail (VGA)"]) 2 c!"Large_Thumbnail__VGA__1" = .ok (some 1) := by
  refine ⟨by decide +kernel, by decide +kernel⟩

end Verif.Objects
