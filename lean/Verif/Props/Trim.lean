/-
C06, C36: trimming an attached label off the head of a file.
-/
import Verif.Lemmas.Trim

namespace Verif.Trim
open Verif.Trim.Spec

/-- the head check of `strict_decode` passes -/
def Spec.HeadOk (f : Bytes) (strict : Bool) : Prop := strict = true → ∀ b ∈ f.take 20, b < 128

theorem trimBytes_head {f : Bytes} {strict : Bool} (h : HeadOk f strict) (m : Int) (r : Bool) :
    trimBytes f m strict r = scan m r 0 (f.take 20) (f.drop 20) := by
  unfold trimBytes
  rw [if_neg]
  cases strict with
  | false => simp
  | true =>
    have := h rfl
    simp only [Bool.true_and, List.any_eq_true, decide_eq_true_eq, not_exists, not_and]
    intro b hb
    exact UInt8.not_le.2 (this b hb)

/-- **C06 (found).** If the earlier windows have no label ending and window `i`, which starts below the
size limit, has one, the result is the file up to and including that ending. -/
theorem C06_ending_found (f : Bytes) (m : Int) (strict r : Bool) (i e : Nat) (hh : HeadOk f strict)
    (hbefore : ∀ j < i, Absent Ending (window f j)) (hi : ((51200 * i : Nat) : Int) < m)
    (hend : WindowEnd (window f i) e) :
    trimBytes f m strict r = .ok (f.take (20 + 51200 * i + e)) := by
  rw [trimBytes_head hh]
  rw [scan_found m r i 0 _ _ e]
  · rw [Nat.add_assoc, List.take_add (i := 20)]
  · intro j hj
    rw [List.drop_drop]; exact hbefore j hj
  · simpa using hi
  · rw [List.drop_drop]; exact hend

/-- **C06 (not found).** If no window that starts below the size limit has a label ending, the result
is everything scanned (20 bytes and `n` windows, cut off at the end of the file), or an error if that
was asked for. -/
theorem C06_no_ending (f : Bytes) (m : Int) (strict r : Bool) (n : Nat) (hh : HeadOk f strict)
    (hn : ∀ j : Nat, ((51200 * j : Nat) : Int) < m ↔ j < n)
    (habs : ∀ j < n, Absent Ending (window f j)) :
    trimBytes f m strict r =
      if r then .error .invalidLabel else .ok (f.take (20 + 51200 * n)) := by
  rw [trimBytes_head hh, scan_not_found m r n]
  · rw [List.take_add]
  · intro j hj
    rw [List.drop_drop]; exact habs j hj
  · have := (hn n)
    simp only [Nat.zero_add]
    omega
  · intro j hj
    simp only [Nat.zero_add]
    exact (hn j).2 hj

/-- **C06 (binary head).** Under `strict_decode` a file whose first 20 bytes are not ASCII is refused. -/
theorem C06_binary_head_refused (f : Bytes) (m : Int) (r : Bool) (h : ¬ HeadOk f true) :
    trimBytes f m true r = .error .invalidLabel := by
  unfold trimBytes
  rw [if_pos]
  simp only [HeadOk, true_imp_iff] at h
  simp only [Bool.true_and, List.any_eq_true, decide_eq_true_eq]
  by_contra hc
  apply h
  intro b hb
  refine UInt8.not_le.1 (fun hle => hc ⟨b, hb, hle⟩)

/-- Every file falls under one of the three theorems above. -/
theorem trim_cases (f : Bytes) (m : Int) (strict r : Bool) :
    (trimBytes f m strict r = .error .invalidLabel) ∨
    (∃ i e, ((51200 * i : Nat) : Int) < m ∧ WindowEnd (window f i) e ∧
      trimBytes f m strict r = .ok (f.take (20 + 51200 * i + e))) ∨
    (∃ n : Nat, m ≤ ((51200 * n : Nat) : Int) ∧ r = false ∧
      trimBytes f m strict r = .ok (f.take (20 + 51200 * n))) := by
  by_cases hh : HeadOk f strict
  case neg =>
    cases strict with
    | false => exact absurd (fun h => by cases h) hh
    | true => exact .inl (C06_binary_head_refused f m r hh)
  obtain ⟨n, hn⟩ : ∃ n : Nat, ∀ j : Nat, ((51200 * j : Nat) : Int) < m ↔ j < n := by
    refine ⟨((m + 51199) / 51200).toNat, fun j => ?_⟩
    omega
  by_cases hex : ∃ i, i < n ∧ ∃ e, WindowEnd (window f i) e
  · have : ∃ i, (i < n ∧ ∃ e, WindowEnd (window f i) e) ∧
        ∀ j < i, ¬ (j < n ∧ ∃ e, WindowEnd (window f j) e) := by
      obtain ⟨i, hi⟩ := hex
      induction i using Nat.strongRecOn with
      | _ i ih =>
        by_cases hc : ∃ j, j < i ∧ (j < n ∧ ∃ e, WindowEnd (window f j) e)
        · obtain ⟨j, hj, hj'⟩ := hc
          exact ih j hj hj'
        · exact ⟨i, hi, fun j hj h => hc ⟨j, hj, h⟩⟩
    obtain ⟨i, ⟨hi, e, he⟩, hmin⟩ := this
    refine .inr (.inl ⟨i, e, (hn i).2 hi, he, C06_ending_found f m strict r i e hh ?_ ((hn i).2 hi) he⟩)
    intro j hj
    cases hfe : firstEnding knownEndings (window f j) with
    | none => exact firstEnding_none hfe
    | some e' => exact absurd ⟨by omega, e', firstEnding_some hfe⟩ (hmin j hj)
  · have := C06_no_ending f m strict r n hh hn (by
      intro j hj
      cases hfe : firstEnding knownEndings (window f j) with
      | none => exact firstEnding_none hfe
      | some e' => exact absurd ⟨j, hj, e', firstEnding_some hfe⟩ hex)
    cases r with
    | true => exact .inl this
    | false =>
      refine .inr (.inr ⟨n, ?_, rfl, this⟩)
      have := hn n
      omega

/-- **C06 (prefix, and why it stopped).** The trimmed label is a prefix of the file containing at least
its first 20 bytes; it ends in a recognised label ending, or at the end of the file, or the size limit
was reached (and then no error was requested). Nothing but `InvalidAttachedLabel` is raised. -/
theorem C06_result_is_head_of_file (f : Bytes) (m : Int) (strict r : Bool) :
    (∀ err, trimBytes f m strict r = .error err → err = .invalidLabel) ∧
    ∀ t, trimBytes f m strict r = .ok t →
      t <+: f ∧ f.take 20 <+: t ∧
      ((∃ w, Ending w ∧ w <:+ t) ∨ (r = false ∧ (t = f ∨ m + 20 ≤ t.length))) := by
  rcases trim_cases f m strict r with h | ⟨i, e, hi, he, h⟩ | ⟨n, hn, hr, h⟩
  · rw [h]
    exact ⟨fun err he => (by cases he; rfl), fun t ht => nomatch ht⟩
  · rw [h]
    refine ⟨fun err he => (nomatch he), fun t ht => ?_⟩
    cases ht
    refine ⟨List.take_prefix _ _, ?_, .inl ?_⟩
    · rw [Nat.add_assoc]
      exact (List.take_prefix_take_left (by omega))
    · obtain ⟨w, hw, a, b, hab, rfl⟩ := he.ending
      refine ⟨w, hw, f.take (20 + 51200 * i) ++ a, ?_⟩
      have hle : (a ++ w).length ≤ 51200 := by
        have := congrArg List.length hab
        simp [window] at this
        simp; omega
      have : List.take (a.length + w.length) (List.drop (20 + 51200 * i) f) = a ++ w := by
        have h2 : List.take (a.length + w.length) (window f i) = a ++ w := by
          rw [hab, ← List.length_append, List.take_left]
        rw [window, List.take_take, Nat.min_eq_left (by simpa using hle)] at h2
        exact h2
      rw [List.take_add (i := 20 + 51200 * i), this, List.append_assoc]
  · rw [h]
    refine ⟨fun err he => (nomatch he), fun t ht => ?_⟩
    cases ht
    refine ⟨List.take_prefix _ _, List.take_prefix_take_left (by omega), .inr ⟨hr, ?_⟩⟩
    by_cases hl : f.length ≤ 20 + 51200 * n
    · exact .inl (List.take_of_length_le hl)
    · refine .inr ?_
      simp only [List.length_take]
      omega

/-- C06, decoding: what is returned is the decoding of those bytes, or `InvalidAttachedLabel`. -/
theorem C06_decoding (decode : Bool → Bytes → Option Str) (f : Bytes) (m : Int) (strict r : Bool) (s : Str) :
    trimLabel decode f m strict r = .ok s ↔
      ∃ t, trimBytes f m strict r = .ok t ∧ decode strict t = some s := by
  unfold trimLabel
  cases h : trimBytes f m strict r with
  | error e => simp
  | ok t =>
    cases hd : decode strict t <;> simp [hd]

/-- a label with `END\r` after 29 bytes, followed by data -/
example (data : Bytes) (hd : data.length ≤ 51200 - 5) :
    trimBytes (List.replicate 20 65 ++ [10, 69, 78, 68, 13] ++ data) 1000 true false =
      .ok (List.replicate 20 65 ++ [10, 69, 78, 68, 13]) := by
  have hw : window (List.replicate 20 65 ++ [10, 69, 78, 68, 13] ++ data) 0 = [10, 69, 78, 68, 13] ++ data := by
    simp only [window, Nat.mul_zero, Nat.add_zero, List.append_assoc]
    rw [List.drop_append_of_le_length (by simp), List.drop_of_length_le (by simp), List.nil_append]
    apply List.take_of_length_le
    simp; omega
  rw [C06_ending_found _ 1000 true false 0 5 ?_ (by simp) (by simp) ?_]
  · rw [List.take_append_of_le_length (by simp), List.take_of_length_le (by simp)]
  · intro _ b hb
    rw [List.append_assoc, List.take_append_of_le_length (by simp), List.take_of_length_le (by simp)] at hb
    rw [(List.mem_replicate.1 hb).2]; decide
  · rw [hw]
    refine .inl ⟨[10, 69, 78, 68, 13], .inl ⟨0, by omega, rfl⟩, ⟨[], data, rfl, rfl⟩, ?_⟩
    rintro w' e' hw' ⟨a, b, hab, rfl⟩
    refine ⟨by simp, ?_⟩
    intro ha
    have : a = [] := List.eq_nil_of_length_eq_zero (by simp at ha; omega)
    subst this
    rcases hw' with ⟨k, hk, rfl⟩ | ⟨k, hk, hk', rfl⟩
    · cases k with
      | zero => simp
      | succ k => simp [List.replicate_succ] at hab
    · obtain ⟨k, rfl⟩ : ∃ j, k = j + 1 := ⟨k - 1, by omega⟩
      simp [List.replicate_succ] at hab

/-- **C36 (straddling).** If every label ending in the file begins before byte 20 or lies across one of
the offsets `20 + 51200*i` where the windows meet, the trimmer does not see it: it reports that there
is no ending, or returns everything it scanned. -/
theorem C36_ending_across_windows_missed (f : Bytes) (m : Int) (strict r : Bool) (n : Nat)
    (hh : HeadOk f strict) (hn : ∀ j : Nat, ((51200 * j : Nat) : Int) < m ↔ j < n)
    (hall : ∀ w e, Ending w → OccursAt w f e → ∃ i, e < 20 + 51200 * i + w.length ∧ 20 + 51200 * i < e) :
    trimBytes f m strict r =
      if r then .error .invalidLabel else .ok (f.take (20 + 51200 * n)) := by
  apply C06_no_ending f m strict r n hh hn
  rintro j - w e hw ⟨a, b, hab, rfl⟩
  obtain ⟨i, h1, h2⟩ := hall w (20 + 51200 * j + a.length + w.length) hw
    ⟨f.take (20 + 51200 * j) ++ a, b ++ f.drop (20 + 51200 * (j + 1)), by
      have : List.drop (20 + 51200 * j) f = a ++ w ++ (b ++ List.drop (20 + 51200 * (j + 1)) f) := by
        have h3 := List.take_append_drop 51200 (List.drop (20 + 51200 * j) f)
        rw [← window, hab, List.drop_drop] at h3
        rw [← h3, show 20 + 51200 * j + 51200 = 20 + 51200 * (j + 1) by omega]
        simp
      conv => lhs; rw [← List.take_append_drop (20 + 51200 * j) f, this]
      simp, by
      have hlen : (window f j).length = a.length + w.length + b.length := by rw [hab]; simp; omega
      have hpos : 0 < w.length := by
        rcases hw with hw | hw | hw
        · rcases hw with ⟨k, -, rfl⟩ | ⟨k, -, -, rfl⟩ <;> simp
        · rw [hw]; simp
        · rw [hw]; simp
      have : 20 + 51200 * j ≤ f.length := by
        simp only [window, List.length_take, List.length_drop] at hlen
        omega
      simp; omega⟩
  have hl := congrArg List.length hab
  simp only [window, List.length_take, List.length_drop, List.length_append] at hl
  omega

/-- A file whose only label ending starts at byte 18. -/
example : trimBytes (List.replicate 18 65 ++ [10, 69, 78, 68, 13]) 1000 true true = .error .invalidLabel := by
  have := C36_ending_across_windows_missed (List.replicate 18 65 ++ [10, 69, 78, 68, 13]) 1000 true true 1
    (by intro _; decide) (by intro j; omega) ?_
  · simpa using this
  · rintro w e hw ⟨a, b, hab, rfl⟩
    have hlen := congrArg List.length hab
    simp only [List.length_append, List.length_replicate, List.length_cons, List.length_nil] at hlen
    have h1 : ∃ t, w = 10 :: t ∧ 4 ≤ t.length ∨ w = [0, 0, 0] := by
      rcases hw with (⟨k, -, rfl⟩ | ⟨k, h8, -, rfl⟩) | hw | hw
      · exact ⟨_, .inl ⟨rfl, by simp⟩⟩
      · exact ⟨_, .inl ⟨rfl, by simp; omega⟩⟩
      · exact ⟨[], .inr hw⟩
      · exact ⟨_, .inl ⟨hw, by simp⟩⟩
    have hget : ∀ c t, w = c :: t → (List.replicate 18 (65 : UInt8) ++ [10, 69, 78, 68, 13])[a.length]? = some c := by
      rintro c t rfl
      rw [hab]; simp
    refine ⟨0, ?_⟩
    obtain ⟨t, ⟨rfl, ht⟩ | rfl⟩ := h1
    · have hg := hget 10 t rfl
      have ha : a.length = 18 := by
        have : a.length < 23 := by simp at hlen; omega
        revert hg
        generalize a.length = n at this ⊢
        revert n
        decide
      simp; omega
    · have hg := hget 0 _ rfl
      have : a.length < 23 := by simp at hlen; omega
      exfalso
      revert hg
      generalize a.length = n at this ⊢
      revert n
      decide

/-- **C36 (priority).** Within one window, three NUL bytes anywhere win over an earlier `END` line with
line feeds only: the trimmed label then includes everything up to those NULs. -/
theorem C36_nul_bytes_win_over_earlier_end_line (f : Bytes) (m : Int) (strict r : Bool) (e : Nat)
    (hh : HeadOk f strict) (hm : 0 < m) (hno : Absent PvlEnding (window f 0))
    (hnul : FirstEnd NulEnding (window f 0) e) (e0 : Nat) (w0 : Bytes) (_hw0 : LfEnding w0)
    (h0 : OccursAt w0 (window f 0) e0) (hlt : e0 < e) :
    ∃ t, trimBytes f m strict r = .ok t ∧ t = f.take (20 + e) ∧
      w0 <:+ f.take (20 + e0) ∧ (f.take (20 + e0)).length < t.length := by
  have := C06_ending_found f m strict r 0 e hh (by simp) (by simpa using hm) (.inr (.inl ⟨hno, hnul⟩))
  refine ⟨_, by simpa using this, rfl, ?_, ?_⟩
  · obtain ⟨a, b, hab, rfl⟩ := h0
    refine ⟨f.take 20 ++ a, ?_⟩
    have hl := congrArg List.length hab
    simp only [window, List.length_take, List.length_drop, List.length_append] at hl
    have h2 : List.take (a.length + w0.length) (window f 0) = a ++ w0 := by
      rw [hab, ← List.length_append, List.take_left]
    rw [window, List.take_take, Nat.min_eq_left (by omega)] at h2
    rw [List.take_add (i := 20), show List.take (a.length + w0.length) (List.drop 20 f) = a ++ w0 from h2,
      List.append_assoc]
  · obtain ⟨w, hw, ⟨a, b, hab, rfl⟩, -⟩ := hnul
    have hl := congrArg List.length hab
    have hp : 0 < w.length := by rw [hw]; simp
    simp only [window, List.length_take, List.length_drop, List.length_append] at hl ⊢
    omega

/-- An LF-terminated label followed by binary data with a run of NULs: the data is taken for label. -/
example : ∃ t, trimBytes (List.replicate 20 65 ++ [10, 69, 78, 68, 10, 1, 2, 3, 0, 0, 0, 7]) 1000 true false = .ok t ∧
    t = List.replicate 20 65 ++ [10, 69, 78, 68, 10, 1, 2, 3, 0, 0, 0] := by
  have hw : window (List.replicate 20 65 ++ [10, 69, 78, 68, 10, 1, 2, 3, 0, 0, 0, 7]) 0 =
      [10, 69, 78, 68, 10, 1, 2, 3, 0, 0, 0, 7] := by
    simp [window]
  have hfe : firstEnding knownEndings [10, 69, 78, 68, 10, 1, 2, 3, 0, 0, 0, 7] = some 11 := by decide
  have := C06_ending_found (List.replicate 20 65 ++ [10, 69, 78, 68, 10, 1, 2, 3, 0, 0, 0, 7]) 1000 true false 0 11
    (by intro _; decide) (by simp) (by simp) (by rw [hw]; exact firstEnding_some hfe)
  exact ⟨_, this, rfl⟩

end Verif.Trim
