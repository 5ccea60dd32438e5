/-
UTF-8: decoding is the inverse of encoding.
-/
import Verif.Model.Label
import Verif.Spec.Label

namespace Verif.Label
open Verif.Py Verif.Label.Spec

theorem toNat_ofNat8 (k : Nat) (h : k < 256) : (UInt8.ofNat k).toNat = k := by
  simp [UInt8.toNat_ofNat', Nat.mod_eq_of_lt h]

theorem ofNat_toNat8 (b : UInt8) : UInt8.ofNat b.toNat = b := by simp

/-- code points -/
def Scalar (n : Nat) : Prop := n < 0xD800 ∨ (0xDFFF < n ∧ n < 0x110000)

theorem char_scalar (c : Char) : Scalar c.toNat := by
  have := c.valid
  simpa [Scalar, UInt32.isValidChar, Nat.isValidChar] using this

theorem ofNat_char (c : Char) : Char.ofNat c.toNat = c := Char.ofNat_toNat c

theorem toNat_ofNat_char (n : Nat) (h : Scalar n) : (Char.ofNat n).toNat = n := by
  have hv : n.isValidChar := by
    rcases h with h | h
    · exact Or.inl h
    · exact Or.inr h
  simp [Char.ofNat, hv, Char.toNat, Char.ofNatAux]

/-- the bytes of a code point -/
def bytesOf (n : Nat) : List Nat :=
  if n < 0x80 then [n]
  else if n < 0x800 then [0xC0 + n / 64, 0x80 + n % 64]
  else if n < 0x10000 then [0xE0 + n / 4096, 0x80 + n / 64 % 64, 0x80 + n % 64]
  else [0xF0 + n / 262144, 0x80 + n / 4096 % 64, 0x80 + n / 64 % 64, 0x80 + n % 64]

theorem utf8Char_eq (c : Char) : utf8Char c = (bytesOf c.toNat).map UInt8.ofNat := rfl

/-- one step, on bytes -/
def stepOf : Bytes → Option (Option Char × Bytes)
  | [] => none
  | b :: rest => some (decodeStep b rest)

theorem step_char (c : Char) (rest : Bytes) : stepOf (utf8Char c ++ rest) = some (some c, rest) := by
  have hs := char_scalar c
  rw [utf8Char_eq]
  conv => rhs; rw [← ofNat_char c]
  generalize c.toNat = n at hs
  unfold Scalar at hs
  unfold bytesOf
  by_cases h1 : n < 0x80
  · rw [if_pos h1]
    simp only [List.map_cons, List.map_nil, List.cons_append, List.nil_append]
    rw [stepOf, decodeStep, if_pos (by rw [toNat_ofNat8 _ (by omega)]; exact h1), toNat_ofNat8 _ (by omega)]
  rw [if_neg h1]
  by_cases h2 : n < 0x800
  · rw [if_pos h2]
    simp only [List.map_cons, List.map_nil, List.cons_append, List.nil_append]
    have e0 := toNat_ofNat8 (0xC0 + n / 64) (by omega)
    have e1 := toNat_ofNat8 (0x80 + n % 64) (by omega)
    have hl : leadByte (0xC0 + n / 64) = some (1, 0x80, 0xBF, n / 64) := by
      unfold leadByte
      rw [if_pos (by omega)]
      simp
    rw [stepOf, decodeStep, e0, if_neg (by omega), hl]
    have hc : continuation 1 0x80 0xBF (n / 64) (UInt8.ofNat (0x80 + n % 64) :: rest) = (true, n, rest) := by
      rw [continuation, e1, if_pos (by omega), continuation]
      exact congrArg (fun x => (true, x, rest)) (by omega)
    simp only [hc, if_true]
  rw [if_neg h2]
  by_cases h3 : n < 0x10000
  · rw [if_pos h3]
    simp only [List.map_cons, List.map_nil, List.cons_append, List.nil_append]
    have e0 := toNat_ofNat8 (0xE0 + n / 4096) (by omega)
    have e1 := toNat_ofNat8 (0x80 + n / 64 % 64) (by omega)
    have e2 := toNat_ofNat8 (0x80 + n % 64) (by omega)
    obtain ⟨lo, hi, hl, hb⟩ : ∃ lo hi, leadByte (0xE0 + n / 4096) = some (2, lo, hi, n / 4096) ∧
        (lo ≤ 0x80 + n / 64 % 64 ∧ 0x80 + n / 64 % 64 ≤ hi) := by
      unfold leadByte
      rw [if_neg (by omega)]
      by_cases g1 : n / 4096 = 0
      · rw [if_pos (by omega)]
        exact ⟨_, _, by rw [g1], by omega⟩
      rw [if_neg (by omega)]
      by_cases g2 : n / 4096 = 0xD
      · rw [if_pos (by omega)]
        exact ⟨_, _, by rw [g2], by omega⟩
      rw [if_neg (by omega), if_pos (by omega)]
      exact ⟨0x80, 0xBF, by simp, by omega⟩
    rw [stepOf, decodeStep, e0, if_neg (by omega), hl]
    have hc : continuation 2 lo hi (n / 4096) (UInt8.ofNat (0x80 + n / 64 % 64) :: UInt8.ofNat (0x80 + n % 64) :: rest) = (true, n, rest) := by
      rw [continuation, e1, if_pos hb, continuation, e2, if_pos (by omega), continuation]
      exact congrArg (fun x => (true, x, rest)) (by omega)
    simp only [hc, if_true]
  rw [if_neg h3]
  simp only [List.map_cons, List.map_nil, List.cons_append, List.nil_append]
  have e0 := toNat_ofNat8 (0xF0 + n / 262144) (by omega)
  have e1 := toNat_ofNat8 (0x80 + n / 4096 % 64) (by omega)
  have e2 := toNat_ofNat8 (0x80 + n / 64 % 64) (by omega)
  have e3 := toNat_ofNat8 (0x80 + n % 64) (by omega)
  obtain ⟨lo, hi, hl, hb⟩ : ∃ lo hi, leadByte (0xF0 + n / 262144) = some (3, lo, hi, n / 262144) ∧
      (lo ≤ 0x80 + n / 4096 % 64 ∧ 0x80 + n / 4096 % 64 ≤ hi) := by
    unfold leadByte
    rw [if_neg (by omega), if_neg (by omega), if_neg (by omega), if_neg (by omega)]
    by_cases g1 : n / 262144 = 0
    · rw [if_pos (by omega)]
      exact ⟨_, _, by rw [g1], by omega⟩
    rw [if_neg (by omega)]
    by_cases g2 : n / 262144 = 4
    · rw [if_pos (by omega)]
      exact ⟨_, _, by rw [g2], by omega⟩
    rw [if_neg (by omega), if_pos (by omega)]
    exact ⟨0x80, 0xBF, by simp, by omega⟩
  rw [stepOf, decodeStep, e0, if_neg (by omega), hl]
  have hc : continuation 3 lo hi (n / 262144)
      (UInt8.ofNat (0x80 + n / 4096 % 64) :: UInt8.ofNat (0x80 + n / 64 % 64) :: UInt8.ofNat (0x80 + n % 64) :: rest) = (true, n, rest) := by
    rw [continuation, e1, if_pos hb, continuation, e2, if_pos (by omega), continuation, e3, if_pos (by omega), continuation]
    exact congrArg (fun x => (true, x, rest)) (by omega)
  simp only [hc, if_true]

theorem decode_char (strict : Bool) (c : Char) (rest : Bytes) :
    decodeUtf8 strict (utf8Char c ++ rest) = (decodeUtf8 strict rest).map (c :: ·) := by
  have h := step_char c rest
  cases hb : utf8Char c ++ rest with
  | nil => rw [hb] at h; cases h
  | cons b r =>
    rw [hb] at h
    simp only [stepOf, Option.some.injEq] at h
    rw [decodeUtf8, h]

theorem decode_text (strict : Bool) (s : Str) (rest : Bytes) :
    decodeUtf8 strict (utf8 s ++ rest) = (decodeUtf8 strict rest).map (s ++ ·) := by
  induction s with
  | nil => simp [utf8]
  | cons c s ih =>
    have : utf8 (c :: s) ++ rest = utf8Char c ++ (utf8 s ++ rest) := by simp [utf8]
    rw [this, decode_char, ih, Option.map_map]
    rfl

theorem decode_utf8 (strict : Bool) (s : Str) : decodeUtf8 strict (utf8 s) = some s := by
  have := decode_text strict s []
  rw [List.append_nil] at this
  rw [this, decodeUtf8]
  simp

/-- the bytes of a complete continuation -/
theorem continuation_some {n lo hi acc code : Nat} {s r : Bytes} (h : continuation (n + 1) lo hi acc s = (true, code, r)) :
    ∃ b t, s = b :: t ∧ lo ≤ b.toNat ∧ b.toNat ≤ hi ∧ continuation n 0x80 0xBF (acc * 64 + (b.toNat - 0x80)) t = (true, code, r) := by
  cases s with
  | nil => simp [continuation] at h
  | cons b t =>
    rw [continuation] at h
    split at h
    · rename_i hb
      exact ⟨b, t, rfl, hb.1, hb.2, h⟩
    · simp at h

theorem continuation_zero {lo hi acc code : Nat} {s r : Bytes} (h : continuation 0 lo hi acc s = (true, code, r)) : code = acc ∧ r = s := by
  rw [continuation] at h
  simp only [Prod.mk.injEq, true_and] at h
  exact ⟨h.1.symm, h.2.symm⟩

/-- a well-formed sequence is the encoding of its code point -/
theorem sequence_encodes {b : UInt8} {rest r : Bytes} {n lo hi bits code : Nat} (hb : ¬ b.toNat < 0x80) (hl : leadByte b.toNat = some (n, lo, hi, bits))
    (hc : continuation n lo hi bits rest = (true, code, r)) : Scalar code ∧ b :: rest = (bytesOf code).map UInt8.ofNat ++ r := by
  have h256 : b.toNat < 256 := b.toNat_lt
  have key : ∀ (l : List Nat) (bs : Bytes), l = bs.map UInt8.toNat → bs = l.map UInt8.ofNat := by
    rintro l bs rfl
    rw [List.map_map]
    have : (UInt8.ofNat ∘ UInt8.toNat) = id := by funext x; simp
    rw [this, List.map_id]
  -- two bytes
  have two : ∀ lo hi, continuation 1 lo hi (b.toNat - 0xC0) rest = (true, code, r) → 0x80 ≤ lo → hi ≤ 0xBF → 0xC2 ≤ b.toNat → b.toNat ≤ 0xDF →
      Scalar code ∧ b :: rest = (bytesOf code).map UInt8.ofNat ++ r := by
    intro lo hi hc hlo hhi g1 g2
    obtain ⟨x, t, rfl, k1, k2, hc⟩ := continuation_some hc
    obtain ⟨hcode, rfl⟩ := continuation_zero hc
    refine ⟨Or.inl (by omega), ?_⟩
    refine congrArg (fun l : Bytes => l ++ r) (key (bytesOf code) [b, x] ?_)
    unfold bytesOf
    rw [if_neg (by omega), if_pos (by omega)]
    simp only [List.map_cons, List.map_nil, List.cons.injEq, and_true]
    omega
  -- three bytes
  have three : ∀ lo hi d, continuation 2 lo hi d rest = (true, code, r) → b.toNat = 0xE0 + d → d ≤ 15 → 0x80 ≤ lo → hi ≤ 0xBF →
      (d = 0 → 0xA0 ≤ lo) → (d = 0xD → hi ≤ 0x9F) → Scalar code ∧ b :: rest = (bytesOf code).map UInt8.ofNat ++ r := by
    intro lo hi d hc hd hd' hlo hhi g1 g2
    obtain ⟨x, t, rfl, k1, k2, hc⟩ := continuation_some hc
    obtain ⟨y, t, rfl, k3, k4, hc⟩ := continuation_some hc
    obtain ⟨hcode, rfl⟩ := continuation_zero hc
    refine ⟨?_, ?_⟩
    · unfold Scalar; omega
    refine congrArg (fun l : Bytes => l ++ r) (key (bytesOf code) [b, x, y] ?_)
    unfold bytesOf
    rw [if_neg (by omega), if_neg (by omega), if_pos (by omega)]
    simp only [List.map_cons, List.map_nil, List.cons.injEq, and_true]
    omega
  have four : ∀ lo hi d, continuation 3 lo hi d rest = (true, code, r) → b.toNat = 0xF0 + d → d ≤ 4 → 0x80 ≤ lo → hi ≤ 0xBF →
      (d = 0 → 0x90 ≤ lo) → (d = 4 → hi ≤ 0x8F) → Scalar code ∧ b :: rest = (bytesOf code).map UInt8.ofNat ++ r := by
    intro lo hi d hc hd hd' hlo hhi g1 g2
    obtain ⟨x, t, rfl, k1, k2, hc⟩ := continuation_some hc
    obtain ⟨y, t, rfl, k3, k4, hc⟩ := continuation_some hc
    obtain ⟨z, t, rfl, k5, k6, hc⟩ := continuation_some hc
    obtain ⟨hcode, rfl⟩ := continuation_zero hc
    refine ⟨?_, ?_⟩
    · unfold Scalar; omega
    refine congrArg (fun l : Bytes => l ++ r) (key (bytesOf code) [b, x, y, z] ?_)
    unfold bytesOf
    rw [if_neg (by omega), if_neg (by omega), if_neg (by omega)]
    simp only [List.map_cons, List.map_nil, List.cons.injEq, and_true]
    omega
  unfold leadByte at hl
  split at hl
  · rename_i g
    simp only [Option.some.injEq, Prod.mk.injEq] at hl
    obtain ⟨rfl, rfl, rfl, rfl⟩ := hl
    exact two _ _ hc (by omega) (by omega) g.1 g.2
  split at hl
  · simp only [Option.some.injEq, Prod.mk.injEq] at hl
    obtain ⟨rfl, rfl, rfl, rfl⟩ := hl
    exact three _ _ _ hc (by omega) (by omega) (by omega) (by omega) (by omega) (by omega)
  split at hl
  · simp only [Option.some.injEq, Prod.mk.injEq] at hl
    obtain ⟨rfl, rfl, rfl, rfl⟩ := hl
    exact three _ _ _ hc (by omega) (by omega) (by omega) (by omega) (by omega) (by omega)
  split at hl
  · simp only [Option.some.injEq, Prod.mk.injEq] at hl
    obtain ⟨rfl, rfl, rfl, rfl⟩ := hl
    exact three _ _ _ hc (by omega) (by omega) (by omega) (by omega) (by omega) (by omega)
  split at hl
  · simp only [Option.some.injEq, Prod.mk.injEq] at hl
    obtain ⟨rfl, rfl, rfl, rfl⟩ := hl
    exact four _ _ _ hc (by omega) (by omega) (by omega) (by omega) (by omega) (by omega)
  split at hl
  · simp only [Option.some.injEq, Prod.mk.injEq] at hl
    obtain ⟨rfl, rfl, rfl, rfl⟩ := hl
    exact four _ _ _ hc (by omega) (by omega) (by omega) (by omega) (by omega) (by omega)
  split at hl
  · simp only [Option.some.injEq, Prod.mk.injEq] at hl
    obtain ⟨rfl, rfl, rfl, rfl⟩ := hl
    exact four _ _ _ hc (by omega) (by omega) (by omega) (by omega) (by omega) (by omega)
  · cases hl

/-- a step that gives a character has read the bytes of that character -/
theorem step_some {b : UInt8} {rest r : Bytes} {c : Char} (h : decodeStep b rest = (some c, r)) : b :: rest = utf8Char c ++ r := by
  unfold decodeStep at h
  split at h
  · rename_i hx
    simp only [Prod.mk.injEq, Option.some.injEq] at h
    obtain ⟨rfl, rfl⟩ := h
    have hc : utf8Char (Char.ofNat b.toNat) = [b] := by
      rw [utf8Char_eq, toNat_ofNat_char _ (Or.inl (by omega)), bytesOf, if_pos hx]
      simp
    rw [hc]; rfl
  · rename_i hx
    cases hl : leadByte b.toNat with
    | none => rw [hl] at h; simp at h
    | some q =>
      obtain ⟨n, lo, hi, bits⟩ := q
      rw [hl] at h
      simp only at h
      split at h
      · rename_i hok
        simp only [Prod.mk.injEq, Option.some.injEq] at h
        obtain ⟨rfl, rfl⟩ := h
        obtain ⟨h1, h2⟩ := sequence_encodes (code := (continuation n lo hi bits rest).2.1) (r := (continuation n lo hi bits rest).2.2) hx hl
          (by rw [← hok])
        rw [h2, utf8Char_eq, toNat_ofNat_char _ h1]
      · simp at h

/-- strict decoding succeeds only on encodings -/
theorem strict_encodes (b : Bytes) (s : Str) (h : decodeUtf8 true b = some s) : b = utf8 s := by
  induction hn : b.length using Nat.strong_induction_on generalizing b s with
  | _ n ih =>
    cases b with
    | nil =>
      rw [decodeUtf8] at h
      cases h
      rfl
    | cons x rest =>
      rw [List.length_cons] at hn
      have hlen := decodeStep_length x rest
      rw [decodeUtf8] at h
      cases hc : (decodeStep x rest).1 with
      | none => rw [hc] at h; simp at h
      | some c =>
        rw [hc] at h
        simp only [Option.map_eq_some_iff] at h
        obtain ⟨t, ht, rfl⟩ := h
        have h1 := ih _ (by omega) _ t ht rfl
        rw [step_some (r := (decodeStep x rest).2) (c := c) (by rw [← hc]), h1]
        rfl

/-- the bytes that an ill-formed sequence takes up -/
theorem continuation_split {n lo hi acc : Nat} {s : Bytes} :
    ∃ pre, s = pre ++ (continuation n lo hi acc s).2.2 ∧ pre.length ≤ n ∧ ((continuation n lo hi acc s).1 = false → pre.length < n) := by
  induction n generalizing lo hi acc s with
  | zero => exact ⟨[], by simp [continuation]⟩
  | succ n ih =>
    cases s with
    | nil => exact ⟨[], by simp [continuation]⟩
    | cons b s =>
      rw [continuation]
      split
      · obtain ⟨pre, h1, h2, h3⟩ := ih (lo := 0x80) (hi := 0xBF) (acc := acc * 64 + (b.toNat - 0x80)) (s := s)
        refine ⟨b :: pre, ?_, by simpa using h2, fun h => by simpa using h3 h⟩
        rw [List.cons_append, ← h1]
      · exact ⟨[], by simp, by simp, fun _ => by simp⟩

theorem leadByte_count {b n lo hi bits : Nat} (h : leadByte b = some (n, lo, hi, bits)) : n ≤ 3 := by
  unfold leadByte at h
  repeat' split at h
  all_goals first
    | (cases h; done)
    | (simp only [Option.some.injEq, Prod.mk.injEq] at h; omega)

/-- an ill-formed sequence has one to three bytes -/
theorem step_none {b : UInt8} {rest r : Bytes} (h : decodeStep b rest = (none, r)) : ∃ pre, rest = pre ++ r ∧ pre.length ≤ 2 := by
  unfold decodeStep at h
  split at h
  · simp at h
  · cases hl : leadByte b.toNat with
    | none =>
      rw [hl] at h
      simp only [Prod.mk.injEq, true_and] at h
      exact ⟨[], by simp [h]⟩
    | some q =>
      obtain ⟨n, lo, hi, bits⟩ := q
      have := leadByte_count hl
      rw [hl] at h
      simp only at h
      split at h
      · simp at h
      · rename_i hok
        simp only [Prod.mk.injEq, true_and] at h
        obtain ⟨pre, h1, h2, h3⟩ := continuation_split (n := n) (lo := lo) (hi := hi) (acc := bits) (s := rest)
        have := h3 (by simpa using hok)
        exact ⟨pre, by rw [← h]; exact h1, by omega⟩

theorem decode_replaced (b : Bytes) : ∃ s, decodeUtf8 false b = some s ∧ Replaced b s := by
  induction hn : b.length using Nat.strong_induction_on generalizing b with
  | _ n ih =>
    cases b with
    | nil => exact ⟨[], by rw [decodeUtf8], .nil⟩
    | cons x rest =>
      rw [List.length_cons] at hn
      have hlen := decodeStep_length x rest
      obtain ⟨s, h1, h2⟩ := ih _ (by omega) (decodeStep x rest).2 rfl
      rw [decodeUtf8]
      cases hc : (decodeStep x rest).1 with
      | some c =>
        refine ⟨c :: s, by simp only [h1]; rfl, ?_⟩
        rw [step_some (r := (decodeStep x rest).2) (c := c) (by rw [← hc])]
        exact .char h2
      | none =>
        refine ⟨Char.ofNat 0xFFFD :: s, by simp only [h1]; rfl, ?_⟩
        obtain ⟨pre, k1, k2⟩ := step_none (b := x) (rest := rest) (r := (decodeStep x rest).2) (by rw [← hc])
        have hbad : ¬ ∃ c r, x :: rest = utf8Char c ++ r := by
          rintro ⟨c, r, he⟩
          have := step_char c r
          rw [← he] at this
          simp only [stepOf, Option.some.injEq] at this
          rw [this] at hc
          cases hc
        have e : x :: rest = (x :: pre) ++ (decodeStep x rest).2 := by rw [List.cons_append, ← k1]
        rw [e] at hbad ⊢
        exact .bad (by simp) (by simpa using k2) hbad h2

end Verif.Label
