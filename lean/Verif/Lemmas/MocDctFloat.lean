/-
The inverse cosine transform of the MOC decoder in double arithmetic: how far it can be from exact arithmetic.
-/
import Verif.Lemmas.MocCosine
import Verif.Props.MocDct

namespace Verif.Moc
open Verif.Moc.Spec Verif.Float

/-- double `a` stands for the number `b` of absolute value at most `B`, with an error of at most `E` -/
def Near (B E : ℝ) (a : ℚ) (b : ℝ) : Prop := |b| ≤ B ∧ |(a : ℝ) - b| ≤ E

/-- rounding of numbers up to `T` changes them by at most `g` -/
def Fine (R : Rounding double) (T g : ℝ) : Prop := ∀ x : ℚ, |(x : ℝ)| ≤ T → |((R.fl x : ℚ) : ℝ) - x| ≤ g

theorem near_neg {B E : ℝ} {a : ℚ} {b : ℝ} (h : Near B E a b) : Near B E (-a) (-b) := by
  refine ⟨by rw [abs_neg]; exact h.1, ?_⟩
  rw [show (((-a : ℚ)) : ℝ) - -b = -((a : ℝ) - b) by push_cast; ring, abs_neg]
  exact h.2

theorem near_abs {B E : ℝ} {a : ℚ} {b : ℝ} (h : Near B E a b) : |(a : ℝ)| ≤ B + E := by
  have := abs_add_le ((a : ℝ) - b) b
  rw [sub_add_cancel] at this
  linarith [h.1, h.2]

theorem near_add {R : Rounding double} {T g B E B' E' : ℝ} (hR : Fine R T g) {a a' : ℚ} {b b' : ℝ} (h : Near B E a b) (h' : Near B' E' a' b')
    (hT : B + E + B' + E' ≤ T) : Near (B + B') (E + E' + g) (R.fl (a + a')) (b + b') := by
  refine ⟨(abs_add_le _ _).trans (add_le_add h.1 h'.1), ?_⟩
  have e := hR (a + a') (by
    push_cast
    have := abs_add_le (a : ℝ) a'
    linarith [near_abs h, near_abs h'])
  have e2 := abs_add_le ((a : ℝ) - b) ((a' : ℝ) - b')
  have e3 := abs_add_le (((R.fl (a + a') : ℚ) : ℝ) - ((a + a' : ℚ) : ℝ)) (((a : ℝ) - b) + ((a' : ℝ) - b'))
  rw [show (((R.fl (a + a') : ℚ) : ℝ) - ((a + a' : ℚ) : ℝ)) + (((a : ℝ) - b) + ((a' : ℝ) - b')) = ((R.fl (a + a') : ℚ) : ℝ) - (b + b') by
    push_cast; ring] at e3
  linarith [h.2, h'.2]

theorem near_sub {R : Rounding double} {T g B E B' E' : ℝ} (hR : Fine R T g) {a a' : ℚ} {b b' : ℝ} (h : Near B E a b) (h' : Near B' E' a' b')
    (hT : B + E + B' + E' ≤ T) : Near (B + B') (E + E' + g) (R.fl (a - a')) (b - b') := by
  rw [sub_eq_add_neg, sub_eq_add_neg]
  exact near_add hR h (near_neg h') hT

/-- multiplication by a cosine of the table -/
theorem near_mul {R : Rounding double} {T g B E : ℝ} (hR : Fine R T g) {a : ℚ} {b : ℝ} (h : Near B E a b) (k : Nat) (hk : k < 16)
    (hT : B + E ≤ T) : Near B (E + B / 2 ^ 53 + g) (R.fl (a * cosineDouble k)) (b * cosine k) := by
  have hc := cosine_table k hk
  have c1 : |((cosineDouble k : ℚ) : ℝ)| ≤ 1 := by
    have : ∀ k < 16, 0 ≤ cosineDouble k ∧ cosineDouble k ≤ 1 := by
      intro k hk
      have : ∀ k < 16, cosine60.getD k 0 ≤ 2 ^ 60 := by decide
      unfold cosineDouble
      refine ⟨by positivity, ?_⟩
      rw [div_le_one (by positivity)]
      exact_mod_cast this k hk
    rw [abs_of_nonneg (by exact_mod_cast (this k hk).1)]
    exact_mod_cast (this k hk).2
  have hB : 0 ≤ B := (abs_nonneg _).trans h.1
  have ha := near_abs h
  refine ⟨?_, ?_⟩
  · rw [abs_mul]
    exact (mul_le_mul h.1 (cosine_abs k) (abs_nonneg _) hB).trans (by linarith)
  · have e := hR (a * cosineDouble k) (by
      push_cast
      rw [abs_mul]
      refine le_trans ?_ hT
      exact (mul_le_mul ha c1 (abs_nonneg _) (by linarith [abs_nonneg (a : ℝ)])).trans (by linarith))
    have t1 : |((a : ℝ) - b) * ((cosineDouble k : ℚ) : ℝ)| ≤ E := by
      rw [abs_mul]
      exact (mul_le_mul h.2 c1 (abs_nonneg _) (by linarith [h.2, abs_nonneg ((a : ℝ) - b)])).trans (by linarith)
    have t2 : |b * (((cosineDouble k : ℚ) : ℝ) - cosine k)| ≤ B / 2 ^ 53 := by
      rw [abs_mul, div_eq_mul_one_div]
      exact mul_le_mul h.1 hc (abs_nonneg _) hB
    have e2 := abs_add_le (((a : ℝ) - b) * ((cosineDouble k : ℚ) : ℝ)) (b * (((cosineDouble k : ℚ) : ℝ) - cosine k))
    have e3 := abs_add_le (((R.fl (a * cosineDouble k) : ℚ) : ℝ) - ((a * cosineDouble k : ℚ) : ℝ))
      (((a : ℝ) - b) * ((cosineDouble k : ℚ) : ℝ) + b * (((cosineDouble k : ℚ) : ℝ) - cosine k))
    rw [show (((R.fl (a * cosineDouble k) : ℚ) : ℝ) - ((a * cosineDouble k : ℚ) : ℝ)) +
      (((a : ℝ) - b) * ((cosineDouble k : ℚ) : ℝ) + b * (((cosineDouble k : ℚ) : ℝ) - cosine k)) =
        ((R.fl (a * cosineDouble k) : ℚ) : ℝ) - b * cosine k by push_cast; ring] at e3
    linarith

theorem near_mono {B E B' E' : ℝ} {a : ℚ} {b : ℝ} (h : Near B E a b) (hB : B ≤ B') (hE : E ≤ E') : Near B' E' a b :=
  ⟨h.1.trans hB, h.2.trans hE⟩

/-- What one stage does to bounds. -/
structure Stage (R : Rounding double) (B E E' : ℝ) : Prop where
  copy : ∀ {a : ℚ} {b : ℝ}, Near B E a b → Near (2 * B) E' a b
  add : ∀ {a a' : ℚ} {b b' : ℝ}, Near B E a b → Near B E a' b' → Near (2 * B) E' (R.fl (a + a')) (b + b')
  rot : ∀ {a a' : ℚ} {b b' : ℝ} {k k' : Nat}, k < 16 → k' < 16 → Near B E a b → Near B E a' b' →
    Near (2 * B) E' (R.fl (R.fl (a * cosineDouble k) + R.fl (a' * cosineDouble k'))) (b * cosine k + b' * cosine k')
  rots : ∀ {a a' : ℚ} {b b' : ℝ} {k k' : Nat}, k < 16 → k' < 16 → Near B E a b → Near B E a' b' →
    Near (2 * B) E' (R.fl (R.fl (a * cosineDouble k) - R.fl (a' * cosineDouble k'))) (b * cosine k - b' * cosine k')
  scale : ∀ {a a' : ℚ} {b b' : ℝ} {k : Nat}, k < 16 → Near B E a b → Near B E a' b' →
    Near (2 * B) E' (R.fl (R.fl (a + a') * cosineDouble k)) ((b + b') * cosine k)

theorem stage {R : Rounding double} {T g B E E' : ℝ} (hR : Fine R T g) (hg : 0 ≤ g) (hB : 0 ≤ B) (hE : 0 ≤ E)
    (hE' : 2 * E + 3 * g + 2 * B / 2 ^ 53 ≤ E') (hT : 2 * B + E' ≤ T) : Stage R B E E' := by
  have hB53 : 0 ≤ 2 * B / 2 ^ 53 := by positivity
  have hsplit : 2 * B / 2 ^ 53 = B / 2 ^ 53 + B / 2 ^ 53 := by ring
  refine ⟨?_, ?_, ?_, ?_, ?_⟩
  · intro a b h
    exact near_mono h (by linarith) (by linarith)
  · intro a a' b b' h h'
    exact near_mono (near_add hR h h' (by linarith)) (by linarith) (by linarith)
  · intro a a' b b' k k' hk hk' h h'
    exact near_mono (near_add hR (near_mul hR h k hk (by linarith)) (near_mul hR h' k' hk' (by linarith)) (by linarith))
      (by linarith) (by linarith)
  · intro a a' b b' k k' hk hk' h h'
    exact near_mono (near_sub hR (near_mul hR h k hk (by linarith)) (near_mul hR h' k' hk' (by linarith)) (by linarith))
      (by linarith) (by linarith)
  · intro a a' b b' k hk h h'
    exact near_mono (near_mul hR (near_add hR h h' (by linarith)) k hk (by linarith)) (by linarith)
      (by rw [show (B + B) / 2 ^ 53 = 2 * B / 2 ^ 53 by ring]; linarith)

theorem stageA {R : Rounding double} {B E E' : ℝ} (S : Stage R B E E') {a : Nat → ℚ} {b : Nat → ℝ} (h : ∀ i, i < 16 → Near B E (a i) (b i)) (i : Nat) :
    Near (2 * B) E' (dctA (doubles R) cosineDouble a i) (dctA reals cosine b i) := by
  unfold dctA
  split <;>
    first
    | exact S.copy (h _ (by decide))
    | exact S.rot (by decide) (by decide) (h _ (by decide)) (h _ (by decide))
    | exact S.rots (by decide) (by decide) (h _ (by decide)) (h _ (by decide))

theorem stageB {R : Rounding double} {B E E' : ℝ} (S : Stage R B E E') {a : Nat → ℚ} {b : Nat → ℝ} (h : ∀ i, Near B E (a i) (b i)) (i : Nat) :
    Near (2 * B) E' (dctB (doubles R) cosineDouble a i) (dctB reals cosine b i) := by
  unfold dctB
  split <;>
    first
    | exact S.copy (h _)
    | exact S.add (h _) (h _)
    | exact S.add (near_neg (h _)) (h _)
    | exact S.rot (by decide) (by decide) (h _) (h _)
    | exact S.rot (by decide) (by decide) (near_neg (h _)) (h _)
    | exact S.rots (by decide) (by decide) (h _) (h _)
    | exact S.rots (by decide) (by decide) (near_neg (h _)) (h _)
    | exact S.scale (by decide) (h _) (h _)
    | exact S.scale (by decide) (near_neg (h _)) (h _)

theorem stageC {R : Rounding double} {B E E' : ℝ} (S : Stage R B E E') {a : Nat → ℚ} {b : Nat → ℝ} (h : ∀ i, Near B E (a i) (b i)) (i : Nat) :
    Near (2 * B) E' (dctC (doubles R) cosineDouble a i) (dctC reals cosine b i) := by
  unfold dctC
  split <;>
    first
    | exact S.copy (h _)
    | exact S.add (h _) (h _)
    | exact S.add (near_neg (h _)) (h _)
    | exact S.rot (by decide) (by decide) (h _) (h _)
    | exact S.rot (by decide) (by decide) (near_neg (h _)) (h _)
    | exact S.rots (by decide) (by decide) (h _) (h _)
    | exact S.rots (by decide) (by decide) (near_neg (h _)) (h _)
    | exact S.scale (by decide) (h _) (h _)
    | exact S.scale (by decide) (near_neg (h _)) (h _)

theorem stageD {R : Rounding double} {B E E' : ℝ} (S : Stage R B E E') {a : Nat → ℚ} {b : Nat → ℝ} (h : ∀ i, Near B E (a i) (b i)) (i : Nat) :
    Near (2 * B) E' (dctD (doubles R) cosineDouble a i) (dctD reals cosine b i) := by
  unfold dctD
  split <;>
    first
    | exact S.copy (h _)
    | exact S.add (h _) (h _)
    | exact S.add (near_neg (h _)) (h _)
    | exact S.rot (by decide) (by decide) (h _) (h _)
    | exact S.rot (by decide) (by decide) (near_neg (h _)) (h _)
    | exact S.rots (by decide) (by decide) (h _) (h _)
    | exact S.rots (by decide) (by decide) (near_neg (h _)) (h _)
    | exact S.scale (by decide) (h _) (h _)
    | exact S.scale (by decide) (near_neg (h _)) (h _)

theorem stageE {R : Rounding double} {B E E' : ℝ} (S : Stage R B E E') {a : Nat → ℚ} {b : Nat → ℝ} (h : ∀ i, Near B E (a i) (b i)) (i : Nat) :
    Near (2 * B) E' (dctE (doubles R) cosineDouble a i) (dctE reals cosine b i) := by
  unfold dctE
  split <;>
    first
    | exact S.copy (h _)
    | exact S.add (h _) (h _)
    | exact S.add (near_neg (h _)) (h _)
    | exact S.rot (by decide) (by decide) (h _) (h _)
    | exact S.rot (by decide) (by decide) (near_neg (h _)) (h _)
    | exact S.rots (by decide) (by decide) (h _) (h _)
    | exact S.rots (by decide) (by decide) (near_neg (h _)) (h _)
    | exact S.scale (by decide) (h _) (h _)
    | exact S.scale (by decide) (near_neg (h _)) (h _)

theorem stageF {R : Rounding double} {B E E' : ℝ} (S : Stage R B E E') {a : Nat → ℚ} {b : Nat → ℝ} (h : ∀ i, Near B E (a i) (b i)) (i : Nat) :
    Near (2 * B) E' (dctF (doubles R) a i) (dctF reals b i) := by
  unfold dctF
  split <;>
    first
    | exact S.copy (h _)
    | exact S.add (h _) (h _)
    | exact S.add (near_neg (h _)) (h _)
    | exact S.rot (by decide) (by decide) (h _) (h _)
    | exact S.rot (by decide) (by decide) (near_neg (h _)) (h _)
    | exact S.rots (by decide) (by decide) (h _) (h _)
    | exact S.rots (by decide) (by decide) (near_neg (h _)) (h _)
    | exact S.scale (by decide) (h _) (h _)
    | exact S.scale (by decide) (near_neg (h _)) (h _)

/-- rounding to nearest among the doubles up to a power of two -/
theorem fine_pow (R : Rounding double) (n : Nat) (hn : n ≤ 1000) : Fine R (2 ^ n) (2 ^ n / 2 ^ 53) := by
  intro x hx
  have hx' : |x| ≤ 2 ^ n := by exact_mod_cast hx
  have hy : (0 : ℚ) < 2 ^ n / 2 ^ 52 := by positivity
  have hr := abs_sub_round (x / (2 ^ n / 2 ^ 52))
  set k := round (x / (2 ^ n / 2 ^ 52)) with hk
  have hq : |x / (2 ^ n / 2 ^ 52)| ≤ 2 ^ 52 := by
    rw [abs_div, abs_of_pos hy, div_le_iff₀ hy]
    rw [show (2 : ℚ) ^ 52 * (2 ^ n / 2 ^ 52) = 2 ^ n by field_simp]
    exact hx'
  have hkb : |k| < 2 ^ 53 := by
    have h1 : |(k : ℚ)| ≤ 2 ^ 52 + 1 / 2 := by
      have := abs_sub_abs_le_abs_sub (k : ℚ) (x / (2 ^ n / 2 ^ 52))
      rw [abs_sub_comm] at this
      linarith
    have h2 : ((|k| : Int) : ℚ) < ((2 ^ 53 : Int) : ℚ) := by
      push_cast
      refine lt_of_le_of_lt h1 (by norm_num)
    exact_mod_cast h2
  have hrep : Rep double (k * (2 ^ n / 2 ^ 52)) := by
    refine ⟨k, (n : Int) - 52, hkb, ?_, ?_, ?_⟩
    · show (-1074 : Int) ≤ n - 52
      omega
    · show (n : Int) - 52 ≤ 971
      omega
    · rw [zpow_sub₀ (by norm_num)]
      norm_cast
  have h1 := R.nearest x _ hrep
  have h2 : |(k : ℚ) * (2 ^ n / 2 ^ 52) - x| ≤ 2 ^ n / 2 ^ 53 := by
    rw [show (k : ℚ) * (2 ^ n / 2 ^ 52) - x = -((x / (2 ^ n / 2 ^ 52) - k) * (2 ^ n / 2 ^ 52)) by field_simp; ring, abs_neg, abs_mul,
      abs_of_pos hy]
    refine (mul_le_mul_of_nonneg_right hr hy.le).trans (le_of_eq ?_)
    field_simp
  have h3 : ((|R.fl x - x| : ℚ) : ℝ) ≤ ((2 ^ n / 2 ^ 53 : ℚ) : ℝ) := by exact_mod_cast h1.trans h2
  push_cast at h3
  exact h3

/-- bounds before stage `s` of the twelve -/
theorem stage_at (R : Rounding double) (s : Nat) (hs : s < 12) :
    Stage R ((2 ^ 31 - 2 ^ 15) * 2 ^ s) (s * 2 ^ s / 2 ^ 20) ((s + 1 : Nat) * 2 ^ (s + 1) / 2 ^ 20) := by
  refine stage (fine_pow R (32 + s) (by omega)) (by positivity) (by positivity) (by positivity) ?_ ?_
  · have : (0 : ℝ) < 2 ^ s := by positivity
    rw [pow_add 2 32 s, pow_succ 2 s]
    push_cast
    generalize (2 : ℝ) ^ s = t at this ⊢
    norm_num
    nlinarith
  · have h1 : (0 : ℝ) < 2 ^ s := by positivity
    have h2 : ((s + 1 : Nat) : ℝ) ≤ 12 := by exact_mod_cast hs
    rw [pow_add 2 32 s, pow_succ 2 s]
    generalize (2 : ℝ) ^ s = t at h1 ⊢
    generalize ((s + 1 : Nat) : ℝ) = n at h2 ⊢
    norm_num
    nlinarith

/-- one transform: six stages -/
theorem near_dct (R : Rounding double) (s : Nat) (hs : s ≤ 6) {a : Nat → ℚ} {b : Nat → ℝ}
    (h : ∀ i, i < 16 → Near ((2 ^ 31 - 2 ^ 15) * 2 ^ s) (s * 2 ^ s / 2 ^ 20) (a i) (b i)) (i : Nat) :
    Near ((2 ^ 31 - 2 ^ 15) * 2 ^ (s + 6)) ((s + 6 : Nat) * 2 ^ (s + 6) / 2 ^ 20) (dctInv16 (doubles R) cosineDouble a i) (dctInv16 reals cosine b i) := by
  have e : ∀ k, 2 * ((2 ^ 31 - 2 ^ 15) * 2 ^ k) = ((2 ^ 31 - 2 ^ 15) * 2 ^ (k + 1) : ℝ) := by
    intro k
    rw [pow_succ]
    ring
  have h1 := stageA (stage_at R s (by omega)) h
  rw [e] at h1
  have h2 := stageB (stage_at R (s + 1) (by omega)) h1
  rw [e] at h2
  have h3 := stageC (stage_at R (s + 2) (by omega)) h2
  rw [e] at h3
  have h4 := stageD (stage_at R (s + 3) (by omega)) h3
  rw [e] at h4
  have h5 := stageE (stage_at R (s + 4) (by omega)) h4
  rw [e] at h5
  have h6 := stageF (stage_at R (s + 5) (by omega)) h5
  rw [e] at h6
  exact h6 i

/-- the transform of a square of numbers below 2^31 in double arithmetic is right to 1/20 -/
theorem near_square (R : Rounding double) (x : Nat → Int) (hx : ∀ i, i < 256 → |x i| ≤ 2 ^ 31 - 2 ^ 15) (i j : Nat) (hi : i < 16) (hj : j < 16) :
    Near (2 ^ 43) (1 / 20) (dctInv16x16 (doubles R) cosineDouble (fun k => (x k : ℚ)) i j) (inverseDct2 (fun k => (x k : ℝ)) i j) := by
  rw [← dct_exact_square _ i j hi hj, dctInv16x16, dctInv16x16]
  refine near_mono (near_dct R 6 (by decide) (fun u hu => near_dct R 0 (by decide) (fun v hv => ?_) j) i) (by norm_num) (by norm_num)
  refine ⟨?_, ?_⟩
  · have := hx (16 * u + v) (by omega)
    rw [pow_zero, mul_one]
    exact_mod_cast this
  · simp

end Verif.Moc
