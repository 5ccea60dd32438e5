import Verif.Spec.Bits
import Mathlib.Data.List.Induction

namespace Verif.Bits
open Verif.Bits.Spec

/-! ### word widths -/

theorem factorLoop_ge (r : Nat) (h : 8 ≤ r) : factorLoop 3 r = 8 :: factorLoop 3 (r - 8) := by
  rw [factorLoop, if_neg (by omega), if_neg (by simp; omega)]

theorem factorLoop_small : ∀ r, r < 8 → factorLoop 3 r =
    (if 4 ≤ r then [4] else []) ++ (if 2 ≤ r % 4 then [2] else []) ++ (if 1 ≤ r % 2 then [1] else []) := by
  intro r h
  have : r = 0 ∨ r = 1 ∨ r = 2 ∨ r = 3 ∨ r = 4 ∨ r = 5 ∨ r = 6 ∨ r = 7 := by omega
  rcases this with rfl | rfl | rfl | rfl | rfl | rfl | rfl | rfl <;> simp [factorLoop]

theorem factorLoop_eq (q r : Nat) (h : r < 8) : factorLoop 3 (8 * q + r) = wordWidths (8 * q + r) := by
  induction q with
  | zero =>
    rw [Nat.mul_zero, Nat.zero_add, factorLoop_small r h]
    simp [wordWidths, Nat.div_eq_of_lt h, Nat.mod_eq_of_lt h]
  | succ q ih =>
    rw [factorLoop_ge _ (by omega), show 8 * (q + 1) + r - 8 = 8 * q + r by omega, ih]
    unfold wordWidths
    rw [show (8 * (q + 1) + r) / 8 = (8 * q + r) / 8 + 1 by omega,
      show (8 * (q + 1) + r) % 8 = (8 * q + r) % 8 by omega,
      show (8 * (q + 1) + r) % 4 = (8 * q + r) % 4 by omega,
      show (8 * (q + 1) + r) % 2 = (8 * q + r) % 2 by omega, List.replicate_succ]
    simp

theorem factor_eq (L : Nat) : factor L = wordWidths L := by
  unfold factor
  split
  · rename_i h
    rcases h with rfl | rfl | rfl | rfl <;> rfl
  · have := factorLoop_eq (L / 8) (L % 8) (Nat.mod_lt _ (by omega))
    rwa [Nat.div_add_mod] at this

theorem wordWidths_sum (L : Nat) : (wordWidths L).sum = L := by
  unfold wordWidths
  simp only [List.sum_append, List.sum_replicate_nat]
  split <;> split <;> split <;> simp <;> omega

theorem wordWidths_pos (L : Nat) : ∀ w ∈ wordWidths L, 0 < w := by
  intro w hw
  unfold wordWidths at hw
  simp only [List.mem_append, List.mem_replicate] at hw
  rcases hw with ((⟨_, rfl⟩ | h) | h) | h
  · omega
  all_goals (split at h <;> simp at h; omega)

/-! ### numbers as bits -/

/-- the low `w` bits of `n`, most significant first -/
def bitsOf : Nat → Nat → Str
  | 0, _ => []
  | w + 1, n => bitsOf w (n / 2) ++ [if n % 2 = 1 then '1' else '0']

theorem bitsOf_length (w n : Nat) : (bitsOf w n).length = w := by
  induction w generalizing n with
  | zero => rfl
  | succ w ih => simp [bitsOf, ih]

theorem bitsOf_zero (w : Nat) : bitsOf w 0 = List.replicate w '0' := by
  induction w with
  | zero => rfl
  | succ w ih => rw [bitsOf, ih, List.replicate_succ']; rfl

theorem zfill_bin (w n : Nat) (hw : 1 ≤ w) (hn : n < 2 ^ w) : zfill w (binStr n) = bitsOf w n := by
  induction w generalizing n with
  | zero => omega
  | succ w ih =>
    unfold zfill binStr
    rw [Nat.toDigits_eq_if (by omega : 1 < 2)]
    split
    · rename_i h
      have : n = 0 ∨ n = 1 := by omega
      rcases this with rfl | rfl
      · rw [bitsOf, bitsOf_zero]; simp
      · rw [bitsOf, bitsOf_zero]; simp
    · rename_i h
      have hw1 : 1 ≤ w := by
        rcases Nat.eq_zero_or_pos w with rfl | h0
        · simp at hn; omega
        · exact h0
      have := ih (n / 2) hw1 (by rw [Nat.pow_succ] at hn; omega)
      unfold zfill binStr at this
      rw [bitsOf, ← this]
      simp only [List.length_append, List.length_cons, List.length_nil, Nat.zero_add,
        Nat.add_sub_add_right, List.append_assoc]
      congr 3
      have : n % 2 = 0 ∨ n % 2 = 1 := by omega
      rcases this with h | h <;> simp [h]

theorem bitsOf_add (a b n : Nat) : bitsOf (a + b) n = bitsOf a (n / 2 ^ b) ++ bitsOf b n := by
  induction b generalizing n with
  | zero => simp [bitsOf]
  | succ b ih =>
    rw [← Nat.add_assoc, bitsOf, ih, bitsOf, Nat.div_div_eq_div_mul, Nat.pow_succ, Nat.mul_comm 2]
    simp

theorem bitsOf_low (b m n : Nat) : bitsOf b (m * 2 ^ b + n) = bitsOf b n := by
  induction b generalizing n with
  | zero => rfl
  | succ b ih =>
    rw [bitsOf, bitsOf]
    have h1 : (m * 2 ^ (b + 1) + n) / 2 = m * 2 ^ b + n / 2 := by
      rw [Nat.pow_succ, ← Nat.mul_assoc]; omega
    have h2 : (m * 2 ^ (b + 1) + n) % 2 = n % 2 := by
      rw [Nat.pow_succ, ← Nat.mul_assoc]; omega
    rw [h1, h2, ih]

theorem byteBits_eq (b : UInt8) : byteBits b = bitsOf 8 b.toNat := by
  simp [byteBits, bitsOf, Nat.testBit_eq_decide_div_mod_eq, Nat.div_div_eq_div_mul]

theorem wordValue_little (bs : Bytes) : wordValue .little bs = wordValue .big bs.reverse := by
  simp [wordValue, List.foldl_reverse]

theorem wordValue_snoc (bs : Bytes) (b : UInt8) :
    wordValue .big (bs ++ [b]) = wordValue .big bs * 2 ^ 8 + b.toNat := by
  simp [wordValue, List.foldl_append]

theorem wordValue_lt (bs : Bytes) : wordValue .big bs < 2 ^ (8 * bs.length) := by
  induction bs using List.reverseRecOn with
  | nil => simp [wordValue]
  | append_singleton bs b ih =>
    rw [wordValue_snoc, List.length_append, Nat.mul_add, Nat.pow_add]
    have := b.toNat_lt
    simp only [List.length_cons, List.length_nil]
    omega

theorem bitsOf_word (bs : Bytes) : bitsOf (8 * bs.length) (wordValue .big bs) = bytesBits bs := by
  induction bs using List.reverseRecOn with
  | nil => rfl
  | append_singleton bs b ih =>
    rw [wordValue_snoc, List.length_append]
    simp only [List.length_cons, List.length_nil, Nat.zero_add, Nat.mul_add, Nat.mul_one]
    rw [bitsOf_add, bitsOf_low]
    have : (wordValue .big bs * 2 ^ 8 + b.toNat) / 2 ^ 8 = wordValue .big bs := by
      have := b.toNat_lt
      omega
    rw [this, ih, bytesBits, bytesBits, List.flatMap_append, ← byteBits_eq]
    simp

theorem word_bits (o : Order) (bs : Bytes) (h : bs ≠ []) :
    zfill (bs.length * 8) (binStr (wordValue o bs)) =
      bytesBits (match o with | .big => bs | .little => bs.reverse) := by
  have hl := List.length_pos_iff.2 h
  cases o with
  | big => rw [Nat.mul_comm, zfill_bin _ _ (by omega) (wordValue_lt bs), bitsOf_word]
  | little =>
    have h2 := wordValue_lt bs.reverse
    rw [List.length_reverse] at h2
    rw [wordValue_little, Nat.mul_comm, zfill_bin _ _ (by omega) h2, ← bitsOf_word, List.length_reverse]

theorem recordBits_big (ws : List Nat) (bs : Bytes) (hp : ∀ w ∈ ws, 0 < w) (hs : ws.sum ≤ bs.length) :
    recordBits .big ws bs = bytesBits (bs.take ws.sum) := by
  induction ws generalizing bs with
  | nil => rfl
  | cons w ws ih =>
    have hw := hp w (by simp)
    simp only [List.sum_cons] at hs ⊢
    have hlen : (bs.take w).length = w := by simp; omega
    have h1 := word_bits .big (bs.take w) (by intro h; rw [h] at hlen; simp at hlen; omega)
    rw [hlen] at h1
    rw [recordBits, h1, ih _ (fun x hx => hp x (by simp [hx])) (by simp; omega), List.take_add,
      bytesBits, bytesBits, bytesBits, List.flatMap_append]

theorem recordBits_little (ws : List Nat) (bs : Bytes) (hp : ∀ w ∈ ws, 0 < w) (hs : ws.sum ≤ bs.length) :
    recordBits .little ws bs = bytesBits (swapWords ws bs) := by
  induction ws generalizing bs with
  | nil => rfl
  | cons w ws ih =>
    have hw := hp w (by simp)
    simp only [List.sum_cons] at hs
    have hlen : (bs.take w).length = w := by simp; omega
    have h1 := word_bits .little (bs.take w) (by intro h; rw [h] at hlen; simp at hlen; omega)
    rw [hlen] at h1
    rw [recordBits, h1, ih _ (fun x hx => hp x (by simp [hx])) (by simp; omega), swapWords,
      bytesBits, bytesBits, bytesBits, List.flatMap_append]

theorem records_flatten (L : Nat) (rows : List Bytes) (h : ∀ r ∈ rows, r.length = L) :
    records L rows.length rows.flatten = rows := by
  induction rows with
  | nil => rfl
  | cons r rows ih =>
    have hr := h r (by simp)
    rw [List.length_cons, records, List.flatten_cons, ← hr, List.take_left, List.drop_left, hr,
      ih (fun x hx => h x (by simp [hx]))]

theorem length_flatten_eq (L : Nat) (rows : List Bytes) (h : ∀ r ∈ rows, r.length = L) :
    rows.flatten.length = rows.length * L := by
  induction rows with
  | nil => simp
  | cons r rows ih =>
    rw [List.flatten_cons, List.length_append, ih (fun x hx => h x (by simp [hx])), h r (by simp),
      List.length_cons, Nat.add_mul]
    omega

theorem convertColumn_eq (o : Order) (rows : List Bytes) (L : Nat) (hne : rows ≠ []) (hL : 0 < L)
    (h : ∀ r ∈ rows, r.length = L) :
    convertColumn o rows = .ok (rows.map (recordBits o (factor L))) := by
  cases rows with
  | nil => exact absurd rfl hne
  | cons r rows =>
    have hr := h r (by simp)
    have hfl := length_flatten_eq L (r :: rows) h
    rw [convertColumn]
    simp only [hr, hfl, Nat.mul_mod_left, Nat.mul_div_cancel _ hL]
    rw [if_neg (by omega), if_neg (by simp), records_flatten L (r :: rows) h]

end Verif.Bits
