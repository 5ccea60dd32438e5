/-
C90, C91: Uniformly_Sampled fields of PDS4 tables.
-/
import Verif.Spec.Uniform
import Verif.Lemmas.MocDctFloat
import Verif.Props.Pds4Table

namespace Verif.Uniform
open Verif.Py Verif.Float Verif.Uniform.Spec

variable {V : Type}

/-- the loop of linear sampling, with the values `vals` one after the other -/
theorem linear_eq (O : Ops V) (d : V) (n : Nat) (vals out : Nat → V)
    (h1 : ∀ j < n, O.store (vals j) = .ok (out j)) (h2 : ∀ j < n, O.add (vals j) d = .ok (vals (j + 1))) :
    linear O d n (vals 0) = .ok ((List.range n).map out) := by
  induction n generalizing vals out with
  | zero => rfl
  | succ n ih =>
    unfold linear
    rw [h1 0 (by omega), h2 0 (by omega)]
    have := ih (fun j => vals (j + 1)) (fun j => out (j + 1)) (fun j hj => h1 (j + 1) (by omega)) (fun j hj => h2 (j + 1) (by omega))
    simp only [bind, Except.bind] at this ⊢
    rw [this, List.range_succ_eq_map, List.map_cons, List.map_map]
    rfl

theorem linear_length (O : Ops V) (d : V) (n : Nat) (cur : V) (xs : List V) (h : linear O d n cur = .ok xs) : xs.length = n := by
  induction n generalizing cur xs with
  | zero => simp [linear] at h; subst h; rfl
  | succ n ih =>
    unfold linear at h
    cases h1 : O.store cur with
    | error e => rw [h1] at h; cases h
    | ok x =>
      cases h2 : O.add cur d with
      | error e => rw [h1, h2] at h; cases h
      | ok nx =>
        cases h3 : linear O d n nx with
        | error e => rw [h1, h2] at h; simp only [bind, Except.bind, h3] at h; cases h
        | ok ys =>
          rw [h1, h2] at h
          simp only [bind, Except.bind, h3, pure, Except.pure, Except.ok.injEq] at h
          subst h
          simp [ih nx ys h3]

theorem mapM_length {α β : Type} (f : α → Except PyErr β) (l : List α) (r : List β) (h : l.mapM f = .ok r) : r.length = l.length := by
  induction l generalizing r with
  | nil => simp [pure, Except.pure] at h; subst h; rfl
  | cons a l ih =>
    rw [List.mapM_cons] at h
    cases h1 : f a with
    | error e => rw [h1] at h; cases h
    | ok b =>
      cases h2 : l.mapM f with
      | error e => rw [h1, h2] at h; cases h
      | ok bs =>
        rw [h1, h2] at h
        simp only [bind, Except.bind, pure, Except.pure, Except.ok.injEq] at h
        subst h
        simp [ih bs h2]

theorem mapM_range {β : Type} (f : Nat → Except PyErr β) (g : Nat → β) (n : Nat) (h : ∀ j < n, f j = .ok (g j)) :
    (List.range n).mapM f = .ok ((List.range n).map g) := by
  have : ∀ l : List Nat, (∀ x ∈ l, x < n) → l.mapM f = .ok (l.map g) := by
    intro l hl
    induction l with
    | nil => rfl
    | cons x l ih =>
      rw [List.mapM_cons, h x (hl x (by simp)), ih (fun y hy => hl y (by simp [hy]))]
      rfl
  exact this _ (fun x hx => List.mem_range.mp hx)

theorem sampled_ok (O : Ops V) (memory : Nat → V) (s : Sampling V) (n : Nat) (vs : List V) (hn : 0 < n)
    (h : filled O memory s n = .ok vs) : sampled O memory s n = .ok vs := by
  unfold sampled
  rw [h]
  simp only
  rw [if_neg (by omega)]

theorem scale_linear (s : Sampling V) (h : IsLinear s) : scaleOf s = c!"linear" := by
  unfold scaleOf
  rcases h with h | ⟨t, h, h2⟩
  · rw [h]
  · rw [h]; exact h2

/-- **C90 (length).** There is one value for each record, always. -/
theorem C90_one_per_record (O : Ops V) (memory : Nat → V) (s : Sampling V) (n : Nat) (vs : List V)
    (h : sampled O memory s n = .ok vs) : vs.length = n ∧ 0 < n := by
  unfold sampled at h
  cases hf : filled O memory s n with
  | error e => rw [hf] at h; cases h
  | ok ws =>
    rw [hf] at h
    simp only at h
    split at h
    · cases h
    · rename_i hn
      simp only [Except.ok.injEq] at h
      subst h
      refine ⟨?_, by omega⟩
      unfold filled at hf
      split at hf
      · exact linear_length _ _ _ _ _ hf
      · split at hf
        · have := mapM_length _ _ _ hf; simpa using this
        · split at hf
          · cases hb : s.base with
            | none => rw [hb] at hf; cases hf
            | some b =>
              rw [hb] at hf
              simp only [exponential] at hf
              cases h1 : O.pow b s.first with
              | error e => rw [h1] at hf; cases hf
              | ok x =>
                cases h2 : O.log10 b with
                | error e => rw [h1, h2] at hf; cases hf
                | ok y =>
                  rw [h1, h2] at hf
                  have := mapM_length _ _ _ hf; simpa using this
          · simp only [Except.ok.injEq] at hf
            subst hf
            simp

/-! ### which type the field has -/

/-- **C90 (type).** The values are doubles, except where the first and the last value are integers beyond 64 bits: these
fields are kept as Python's numbers. -/
theorem C90_type (x y : Num) : asObject x y = true ↔ ∃ a b : Int, x = .int a ∧ y = .int b ∧ Beyond64 a b := by
  constructor
  · intro h
    cases x with
    | real x => simp [asObject] at h
    | int a =>
      cases y with
      | real y => simp [asObject] at h
      | int b =>
        refine ⟨a, b, rfl, rfl, ?_⟩
        simp only [asObject, decide_eq_true_eq] at h
        unfold Pds4Scale.typeFor at h
        simp only at h
        unfold Beyond64
        rcases le_total a b with hab | hab
        all_goals
          simp only [min_eq_left hab, min_eq_right hab, max_eq_right hab, max_eq_left hab] at h ⊢
          split at h <;> try (split at h) <;> try (split at h) <;> try (split at h) <;> try (split at h) <;> try (split at h) <;> try (split at h) <;> try (split at h) <;> try (split at h) <;> try (split at h) <;> try (split at h)
        all_goals first
          | (simp at h; done)
          | skip
        all_goals
          simp only [Int.natCast_natAbs] at *
          simp only [le_max_iff, lt_max_iff] at *
          omega
  · rintro ⟨a, b, rfl, rfl, h⟩
    simp only [asObject, decide_eq_true_eq]
    unfold Pds4Scale.typeFor
    unfold Beyond64 at h
    simp only [Int.natCast_natAbs]
    have hm : max |min a b| |max a b| = max |a| |b| := by
      rcases le_total a b with hab | hab
      · rw [min_eq_left hab, max_eq_right hab]
      · rw [min_eq_right hab, max_eq_left hab, max_comm]
    rw [hm]
    generalize max |a| |b| = M at h ⊢
    generalize min a b = m at h ⊢
    rw [if_neg (by omega), if_neg (by omega), if_neg (by omega), if_neg (by omega), if_neg (by omega), if_neg (by omega),
      if_neg (by omega), if_neg (by omega)]

/-! ### linear sampling -/

variable (R : Rounding double) (L : Libm) (memory : Nat → Num)

theorem uniform_linear (s : Sampling Num) (n : Nat) (hn : 0 < n) (hs : IsLinear s) (vals out : Nat → Num) (h0 : s.first = vals 0)
    (h1 : ∀ j < n, storeNum R (asObject s.first s.last) (vals j) = .ok (out j))
    (h2 : ∀ j < n, arith R (· + ·) (· + ·) (vals j) s.interval = .ok (vals (j + 1))) :
    uniformField R L memory s n = .ok ((List.range n).map out) := by
  refine sampled_ok _ _ _ _ _ hn ?_
  unfold filled
  rw [if_pos (scale_linear s hs), h0]
  exact linear_eq _ _ _ vals out (by rw [← h0]; exact h1) h2

/-- **C90 (integers).** With integers for first value and interval, record `j` has the integer first + j * interval, rounded once to
a double; exactly this integer if it is at most 2^53 in size. -/
theorem C90_linear_integers (s : Sampling Num) (n : Nat) (hn : 0 < n) (hs : IsLinear s) (a d : Int)
    (ha : s.first = .int a) (hd : s.interval = .int d) (hb : ¬ ∃ b, s.last = .int b ∧ Beyond64 a b)
    (hl : ∀ j < n, |((a + j * d : Int) : ℚ)| < limit double) :
    ∃ vs, uniformField R L memory s n = .ok vs ∧ vs.length = n ∧
      ∀ j < n, vs[j]? = some (.real (some (R.fl (a + j * d : Int)))) ∧
        (|a + j * d| ≤ 2 ^ 53 → vs[j]? = some (.real (some (a + j * d : Int)))) := by
  have hobj : asObject s.first s.last = false := by
    by_contra h
    simp only [Bool.not_eq_false] at h
    obtain ⟨a', b, h1, h2, h3⟩ := (C90_type _ _).mp h
    rw [ha] at h1
    cases h1
    exact hb ⟨b, h2, h3⟩
  have hfirst : ∀ j : Nat, j < n → (((List.range n).map (fun j : Nat => Num.real (some (R.fl (a + j * d : Int)))))[j]? =
      some (.real (some (R.fl (a + j * d : Int))))) := by
    intro j hj
    rw [List.getElem?_map, List.getElem?_range hj]
    rfl
  refine ⟨_, uniform_linear R L memory s n hn hs (fun j => .int (a + j * d))
    (fun j => .real (some (R.fl (a + j * d : Int)))) (by rw [ha]; simp) ?_ ?_, by simp, ?_⟩
  · intro j hj
    rw [hobj]
    simp only [storeNum, asFloat, Bool.false_eq_true, if_false]
    rw [if_pos (hl j hj)]
  · intro j _
    rw [hd]
    simp only [arith]
    congr 2
    push_cast
    ring
  · intro j hj
    refine ⟨hfirst j hj, fun hsm => ?_⟩
    rw [hfirst j hj, R.exact]
    rcases lt_or_eq_of_le hsm with h | h
    · exact ⟨a + j * d, 0, by simpa [double] using h, by simp [double], by simp [double], by simp⟩
    · rcases abs_eq (by norm_num : (0 : Int) ≤ 2 ^ 53) |>.mp h with h | h
      · exact ⟨1, 53, by simp [double], by simp [double], by simp [double], by rw [h]; norm_num⟩
      · exact ⟨-1, 53, by simp [double], by simp [double], by simp [double], by rw [h]; norm_num⟩

/-- **C90 (large integers).** If first and last value are integers beyond 64 bits, every record has its integer exactly. -/
theorem C90_linear_huge (s : Sampling Num) (n : Nat) (hn : 0 < n) (hs : IsLinear s) (a d b : Int)
    (ha : s.first = .int a) (hd : s.interval = .int d) (hlast : s.last = .int b) (hb : Beyond64 a b) :
    ∃ vs, uniformField R L memory s n = .ok vs ∧ vs.length = n ∧ ∀ j < n, vs[j]? = some (.int (a + j * d)) := by
  have hobj : asObject s.first s.last = true := (C90_type _ _).mpr ⟨a, b, ha, hlast, hb⟩
  refine ⟨_, uniform_linear R L memory s n hn hs (fun j => .int (a + j * d)) (fun j => .int (a + j * d)) (by rw [ha]; simp)
    ?_ ?_, by simp, ?_⟩
  · intro j _
    rw [hobj]; rfl
  · intro j _
    rw [hd]
    simp only [arith]
    congr 2
    push_cast
    ring
  · intro j hj
    rw [List.getElem?_map, List.getElem?_range hj]
    rfl

theorem rep_int (n : Int) (h : |n| ≤ 2 ^ 53) : Rep double (n : ℚ) := by
  rcases lt_or_eq_of_le h with h | h
  · exact ⟨n, 0, by simpa [double] using h, by simp [double], by simp [double], by simp⟩
  · rcases abs_eq (by norm_num : (0 : Int) ≤ 2 ^ 53) |>.mp h with h | h
    · exact ⟨1, 53, by simp [double], by simp [double], by simp [double], by rw [h]; norm_num⟩
    · exact ⟨-1, 53, by simp [double], by simp [double], by simp [double], by rw [h]; norm_num⟩

theorem limit_big (n : Nat) (hn : n ≤ 1000) : (2 : ℚ) ^ n < limit double := by
  have he : limit double = (2 ^ 53 - 1 / 2) * 2 ^ (971 : Nat) := by
    unfold limit double
    simp only
    rw [← zpow_natCast (2 : ℚ) 971]; rfl
  rw [he]
  have h1 : (2 : ℚ) ^ n ≤ 2 ^ (1000 : Nat) := pow_le_pow_right₀ (by norm_num) hn
  refine lt_of_le_of_lt h1 ?_
  rw [show (1000 : Nat) = 29 + 971 by norm_num, pow_add]
  exact mul_lt_mul_of_pos_right (by norm_num) (by positivity)

theorem asFloat_holds (x : Num) (p : ℚ) (h : Holds x p) : asFloat R x = .ok (some p) := by
  rcases h with ⟨n, rfl, rfl, hn⟩ | rfl
  · simp only [asFloat]
    rw [if_pos, R.exact _ (rep_int n hn)]
    have : |(n : ℚ)| ≤ 2 ^ 53 := by exact_mod_cast hn
    exact lt_of_le_of_lt this (limit_big 53 (by norm_num))
  · rfl

/-- the running sum in doubles -/
def running (q : ℚ) : Nat → Option ℚ → Option ℚ
  | 0, cur => cur
  | j + 1, cur => floatOp R (· + ·) (running q j cur) (some q)

/-- the values of `current_value` -/
def sums (first : Num) (p q : ℚ) : Nat → Num
  | 0 => first
  | j + 1 => .real (running R q (j + 1) (some p))

/-- With a float among first value and interval the records have the running sum. -/
theorem linear_floats (s : Sampling Num) (n : Nat) (hn : 0 < n) (hs : IsLinear s) (p q : ℚ)
    (hp : Holds s.first p) (hq : Holds s.interval q)
    (hf : s.first = .real (some p) ∨ s.interval = .real (some q)) (hobj : asObject s.first s.last = false) :
    uniformField R L memory s n = .ok ((List.range n).map (fun j => .real (running R q j (some p)))) := by
  have ep := asFloat_holds R _ _ hp
  have eq := asFloat_holds R _ _ hq
  have hcur : ∀ j, asFloat R (sums R s.first p q j) = .ok (running R q j (some p)) := by
    intro j
    cases j with
    | zero => exact ep
    | succ j => rfl
  refine uniform_linear R L memory s n hn hs (sums R s.first p q) _ rfl ?_ ?_
  · intro j _
    rw [hobj]
    unfold storeNum
    simp only [Bool.false_eq_true, if_false, hcur]
  · intro j _
    have hnot : ¬ ((∃ a, sums R s.first p q j = .int a) ∧ ∃ b, s.interval = .int b) := by
      rintro ⟨⟨a, h1⟩, b, h2⟩
      rcases hf with hf | hf
      · cases j with
        | zero => rw [sums, hf] at h1; cases h1
        | succ j => cases h1
      · rw [hf] at h2; cases h2
    have hadd : ∀ x y : Num, ¬ ((∃ a, x = .int a) ∧ ∃ b, y = .int b) → ∀ u v, asFloat R x = .ok u → asFloat R y = .ok v →
        arith R (· + ·) (· + ·) x y = .ok (.real (floatOp R (· + ·) u v)) := by
      intro x y hxy u v hu hv
      cases x with
      | int a =>
        cases y with
        | int b => exact absurd ⟨⟨a, rfl⟩, b, rfl⟩ hxy
        | real y => simp only [arith, hu, hv]
      | real x => simp only [arith, hu, hv]
    rw [hadd _ _ hnot _ _ (hcur j) eq]
    rfl

/-- **C90 (doubles).** Where first + j * interval is a double for every record, the records have exactly these numbers. -/
theorem C90_linear_exact (s : Sampling Num) (n : Nat) (hn : 0 < n) (hs : IsLinear s) (p q : ℚ)
    (hp : Holds s.first p) (hq : Holds s.interval q) (hobj : ∀ a b, s.first = .int a → s.last = .int b → ¬ Beyond64 a b)
    (hr : ∀ j < n, Rep double (p + j * q) ∧ |p + j * q| < limit double) :
    ∃ vs, uniformField R L memory s n = .ok vs ∧ vs.length = n ∧ ∀ j < n, vs[j]? = some (.real (some (p + j * q))) := by
  have hobj' : asObject s.first s.last = false := by
    by_contra h
    simp only [Bool.not_eq_false] at h
    obtain ⟨a, b, h1, h2, h3⟩ := (C90_type _ _).mp h
    exact hobj a b h1 h2 h3
  by_cases hf : s.first = .real (some p) ∨ s.interval = .real (some q)
  · refine ⟨_, linear_floats R L memory s n hn hs p q hp hq hf hobj', by simp, ?_⟩
    have hrun : ∀ j : Nat, j < n → running R q j (some p) = some (p + j * q) := by
      intro j
      induction j with
      | zero => intro _; simp [running]
      | succ j ih =>
        intro hj
        unfold running
        rw [ih (by omega)]
        simp only [floatOp, toDouble]
        have h := hr (j + 1) hj
        have e : p + j * q + q = p + ((j + 1 : Nat) : ℚ) * q := by push_cast; ring
        rw [e, if_pos h.2, R.exact _ h.1]
    intro j hj
    rw [List.getElem?_map, List.getElem?_range hj]
    simp only [Option.map_some]
    rw [hrun j hj]
  · have h1 : ∃ a : Int, s.first = .int a ∧ p = a := by
      rcases hp with ⟨a, h, h', -⟩ | h
      · exact ⟨a, h, h'⟩
      · exact absurd (Or.inl h) hf
    have h2 : ∃ d : Int, s.interval = .int d ∧ q = d := by
      rcases hq with ⟨a, h, h', -⟩ | h
      · exact ⟨a, h, h'⟩
      · exact absurd (Or.inr h) hf
    obtain ⟨a, ha, rfl⟩ := h1
    obtain ⟨d, hd, rfl⟩ := h2
    obtain ⟨vs, g1, g2, g3⟩ := C90_linear_integers R L memory s n hn hs a d ha hd
      (by rintro ⟨b, hb1, hb2⟩; exact hobj a b ha hb1 hb2) (by
        intro j hj
        have := (hr j hj).2
        push_cast
        exact this)
    refine ⟨vs, g1, g2, fun j hj => ?_⟩
    rw [(g3 j hj).1]
    have h := (hr j hj).1
    have e : (((a + j * d : Int)) : ℚ) = a + j * d := by push_cast; ring
    rw [e, R.exact _ h]

/-- **C90 (other numbers).** In all cases the value of record `j` is within `j * 2^(e-53)` of first + j * interval, if all these numbers
stay below 2^(e-1) in size: the errors of rounding add up, and no more. -/
theorem C90_linear_near (s : Sampling Num) (n e : Nat) (hn : 0 < n) (hn2 : n ≤ 2 ^ 52) (he : 1 ≤ e ∧ e ≤ 1000) (hs : IsLinear s) (p q : ℚ)
    (hp : Holds s.first p) (hq : Holds s.interval q) (hobj : ∀ a b, s.first = .int a → s.last = .int b → ¬ Beyond64 a b)
    (hr : ∀ j < n, |p + j * q| ≤ 2 ^ (e - 1)) :
    ∃ vs, uniformField R L memory s n = .ok vs ∧ vs.length = n ∧
      ∀ j < n, ∃ y, vs[j]? = some (.real (some y)) ∧ |y - (p + j * q)| ≤ j * (2 ^ e / 2 ^ 53) := by
  have hobj' : asObject s.first s.last = false := by
    by_contra h
    simp only [Bool.not_eq_false] at h
    obtain ⟨a, b, h1, h2, h3⟩ := (C90_type _ _).mp h
    exact hobj a b h1 h2 h3
  have hfine : ∀ x : ℚ, |x| ≤ 2 ^ e → |R.fl x - x| ≤ 2 ^ e / 2 ^ 53 := by
    intro x hx
    have h1 := Moc.fine_pow R e he.2 x (by exact_mod_cast hx)
    have h2 : ((|R.fl x - x| : ℚ) : ℝ) ≤ ((2 ^ e / 2 ^ 53 : ℚ) : ℝ) := by push_cast; exact h1
    exact_mod_cast h2
  have h2e : (2 : ℚ) ^ e = 2 * 2 ^ (e - 1) := by
    rw [← pow_succ']
    congr 1
    omega
  by_cases hf : s.first = .real (some p) ∨ s.interval = .real (some q)
  · refine ⟨_, linear_floats R L memory s n hn hs p q hp hq hf hobj', by simp, ?_⟩
    have hrun : ∀ j : Nat, j < n → ∃ y, running R q j (some p) = some y ∧ |y - (p + j * q)| ≤ j * (2 ^ e / 2 ^ 53) := by
      intro j
      induction j with
      | zero => intro _; exact ⟨p, rfl, by simp⟩
      | succ j ih =>
        intro hj
        obtain ⟨y, hy, hb⟩ := ih (by omega)
        have h1 := hr (j + 1) hj
        have hdist : |y + q - (p + ((j + 1 : Nat) : ℚ) * q)| ≤ j * (2 ^ e / 2 ^ 53) := by
          have e1 : y + q - (p + ((j + 1 : Nat) : ℚ) * q) = y - (p + j * q) := by push_cast; ring
          rw [e1]; exact hb
        have hj52 : (j : ℚ) ≤ 2 ^ 52 := by
          have : j ≤ 2 ^ 52 := by omega
          exact_mod_cast this
        have hsmall : (j : ℚ) * (2 ^ e / 2 ^ 53) ≤ 2 ^ (e - 1) := by
          have h3 : (j : ℚ) * (2 ^ e / 2 ^ 53) ≤ 2 ^ 52 * (2 ^ e / 2 ^ 53) :=
            mul_le_mul_of_nonneg_right hj52 (by positivity)
          refine h3.trans (le_of_eq ?_)
          rw [h2e]
          field_simp
        have hsize : |y + q| ≤ 2 ^ e := by
          have := abs_sub_abs_le_abs_sub (y + q) (p + ((j + 1 : Nat) : ℚ) * q)
          rw [h2e]
          linarith
        refine ⟨R.fl (y + q), ?_, ?_⟩
        · unfold running
          rw [hy]
          simp only [floatOp, toDouble]
          rw [if_pos (lt_of_le_of_lt hsize (limit_big e he.2))]
        · have h4 := hfine (y + q) hsize
          have h5 := abs_add_le (R.fl (y + q) - (y + q)) (y + q - (p + ((j + 1 : Nat) : ℚ) * q))
          rw [sub_add_sub_cancel] at h5
          push_cast at hdist h5 ⊢
          linarith
    intro j hj
    obtain ⟨y, hy, hb⟩ := hrun j hj
    refine ⟨y, ?_, hb⟩
    rw [List.getElem?_map, List.getElem?_range hj]
    simp only [Option.map_some]
    rw [hy]
  · have h1 : ∃ a : Int, s.first = .int a ∧ p = a ∧ |a| ≤ 2 ^ 53 := by
      rcases hp with ⟨a, h, h', h''⟩ | h
      · exact ⟨a, h, h', h''⟩
      · exact absurd (Or.inl h) hf
    have h2 : ∃ d : Int, s.interval = .int d ∧ q = d := by
      rcases hq with ⟨a, h, h', -⟩ | h
      · exact ⟨a, h, h'⟩
      · exact absurd (Or.inr h) hf
    obtain ⟨a, ha, rfl, ha2⟩ := h1
    obtain ⟨d, hd, rfl⟩ := h2
    have hle : ∀ j : Nat, j < n → |((a + j * d : Int) : ℚ)| ≤ 2 ^ e := by
      intro j hj
      have := hr j hj
      push_cast
      rw [h2e]
      have : (0 : ℚ) < 2 ^ (e - 1) := by positivity
      linarith
    obtain ⟨vs, g1, g2, g3⟩ := C90_linear_integers R L memory s n hn hs a d ha hd
      (by rintro ⟨b, hb1, hb2⟩; exact hobj a b ha hb1 hb2) (fun j hj => lt_of_le_of_lt (hle j hj) (limit_big e he.2))
    refine ⟨vs, g1, g2, fun j hj => ⟨_, (g3 j hj).1, ?_⟩⟩
    have ec : (((a + j * d : Int)) : ℚ) = a + j * d := by push_cast; ring
    by_cases hj0 : j = 0
    · subst hj0
      simp only [Nat.cast_zero, zero_mul, add_zero]
      rw [R.exact _ (rep_int a ha2)]
      simp
    · have h4 := hfine _ (hle j hj)
      rw [ec] at h4 ⊢
      have hj1 : (1 : ℚ) ≤ j := by
        have : 1 ≤ j := by omega
        exact_mod_cast this
      have h5 : (2 : ℚ) ^ e / 2 ^ 53 ≤ j * (2 ^ e / 2 ^ 53) := le_mul_of_one_le_left (by positivity) hj1
      linarith

/-! ### logarithmic and exponential sampling -/

/-- **C90 (logarithmic, integers).** With integers for first value and interval, record `j` has first * interval^j, rounded once. -/
theorem C90_logarithmic_integers (s : Sampling Num) (n : Nat) (hn : 0 < n) (t : Str) (ht : s.scale = some t)
    (hl : lower t = c!"logarithmic") (a d : Int) (ha : s.first = .int a) (hd : s.interval = .int d)
    (hb : ¬ ∃ b, s.last = .int b ∧ Beyond64 a b) (hlim : ∀ j < n, |((a * d ^ j : Int) : ℚ)| < limit double) :
    ∃ vs, uniformField R L memory s n = .ok vs ∧ vs.length = n ∧
      ∀ j < n, vs[j]? = some (.real (some (R.fl (a * d ^ j : Int)))) := by
  have hobj : asObject s.first s.last = false := by
    by_contra h
    simp only [Bool.not_eq_false] at h
    obtain ⟨a', b, h1, h2, h3⟩ := (C90_type _ _).mp h
    rw [ha] at h1
    cases h1
    exact hb ⟨b, h2, h3⟩
  refine ⟨(List.range n).map (fun j => .real (some (R.fl (a * d ^ j : Int)))), ?_, by simp, ?_⟩
  · refine sampled_ok _ _ _ _ _ hn ?_
    have hsc : scaleOf s = c!"logarithmic" := by unfold scaleOf; rw [ht]; exact hl
    unfold filled
    rw [hsc, if_neg (by decide), if_pos rfl]
    refine mapM_range _ _ _ ?_
    intro j hj
    rw [ha, hd] at *
    simp only [logValue, pyOps, pyPow, hobj, Int.natCast_nonneg, if_true, Int.toNat_natCast, bind, Except.bind, arith, storeNum,
      asFloat, Bool.false_eq_true, if_false]
    rw [if_pos (hlim j hj)]
  · intro j hj
    rw [List.getElem?_map, List.getElem?_range hj]
    rfl

/-- **C90 (logarithmic).** In exact arithmetic record `j` has first * interval^j; and the last record has the last value of the label
where the interval is the (n-1)-th root of last/first. -/
theorem C90_logarithmic (memory : Nat → ℝ) (s : Sampling ℝ) (n : Nat) (hn : 0 < n) (t : Str) (ht : s.scale = some t)
    (hl : lower t = c!"logarithmic") :
    ∃ vs, sampled realOps memory s n = .ok vs ∧ vs.length = n ∧ (∀ j < n, vs[j]? = some (s.first * s.interval ^ j)) ∧
      (s.first ≠ 0 → s.interval ^ (n - 1) = s.last / s.first → vs[n - 1]? = some s.last) := by
  have key : sampled realOps memory s n = .ok ((List.range n).map (fun j => s.first * s.interval ^ j)) := by
    refine sampled_ok _ _ _ _ _ hn ?_
    have hsc : scaleOf s = c!"logarithmic" := by unfold scaleOf; rw [ht]; exact hl
    unfold filled
    rw [hsc, if_neg (by decide), if_pos rfl]
    refine mapM_range _ _ _ ?_
    intro j _
    simp only [logValue, realOps, bind, Except.bind, Real.rpow_natCast]
  have hget : ∀ j < n, ((List.range n).map (fun j => s.first * s.interval ^ j))[j]? = some (s.first * s.interval ^ j) := by
    intro j hj
    rw [List.getElem?_map, List.getElem?_range hj]
    rfl
  refine ⟨_, key, by simp, hget, fun h0 h1 => ?_⟩
  rw [hget (n - 1) (by omega), h1, mul_div_cancel₀ _ h0]

/-- **C90 (exponential).** In exact arithmetic the value `x` of record `j` is such that base^x is base^first + j * interval. -/
theorem C90_exponential (memory : Nat → ℝ) (s : Sampling ℝ) (n : Nat) (hn : 0 < n) (t : Str) (ht : s.scale = some t)
    (hl : lower t = c!"exponential") (b : ℝ) (hb : s.base = some b) (hb0 : 0 < b) (hb1 : b ≠ 1)
    (hpos : ∀ j < n, 0 < b ^ s.first + j * s.interval) :
    ∃ vs, sampled realOps memory s n = .ok vs ∧ vs.length = n ∧
      ∀ j < n, ∃ x, vs[j]? = some x ∧ b ^ x = b ^ s.first + j * s.interval := by
  have hlb : Real.logb 10 b ≠ 0 := by
    rw [Real.logb, div_ne_zero_iff]
    exact ⟨Real.log_ne_zero_of_pos_of_ne_one hb0 hb1, (Real.log_pos (by norm_num)).ne'⟩
  have key : sampled realOps memory s n =
      .ok ((List.range n).map (fun j : Nat => Real.logb 10 (b ^ s.first + j * s.interval) / Real.logb 10 b)) := by
    refine sampled_ok _ _ _ _ _ hn ?_
    have hsc : scaleOf s = c!"exponential" := by unfold scaleOf; rw [ht]; exact hl
    unfold filled
    rw [hsc, if_neg (by decide), if_neg (by decide), if_pos rfl, hb]
    simp only [exponential, realOps, bind, Except.bind]
    rw [if_neg (not_le.mpr hb0)]
    simp only
    refine mapM_range _ _ _ ?_
    intro j hj
    simp only [expValue, bind, Except.bind]
    rw [if_neg (not_le.mpr (hpos j hj))]
    simp only [hlb, if_false]
  refine ⟨_, key, by simp, ?_⟩
  intro j hj
  refine ⟨Real.logb 10 (b ^ s.first + j * s.interval) / Real.logb 10 b, ?_, ?_⟩
  · rw [List.getElem?_map, List.getElem?_range hj]
    rfl
  · have : Real.logb 10 (b ^ s.first + j * s.interval) / Real.logb 10 b = Real.logb b (b ^ s.first + j * s.interval) := by
      unfold Real.logb
      have h10 : Real.log 10 ≠ 0 := (Real.log_pos (by norm_num)).ne'
      rw [div_div_div_cancel_right₀ h10]
    rw [this]
    exact Real.rpow_logb hb0 hb1 (hpos j hj)

/-! ### the columns of the table -/

/-- **C90 (tables).** In a table with records of fixed length, the uniformly sampled fields are the first columns, under their names and
with the values given above, before the fields that are stored in the file. -/
theorem C90_columns (E : Pds4Table.Env) (l : Pds4Table.Label) (file : Bytes) (h : Pds4Table.Spec.Readable E l file)
    (hn : Pds4Table.Spec.NamedTable l) (fields : List (Str × Sampling Num))
    (hu : List.Forall₂ (fun (f : Str × Sampling Num) u => u.name = f.1 ∧
      ∃ vs, uniformField R L memory f.2 l.records = .ok vs ∧ u.values = vs.map cellOf) fields l.uniform) :
    ∃ table, Pds4Table.readTable E l file = .ok table ∧
      ∀ (k : Nat) (f : Str × Sampling Num), fields[k]? = some f → ∃ vs, uniformField R L memory f.2 l.records = .ok vs ∧ vs.length = l.records ∧
        ∃ cells, table[k]? = some (f.1, cells) ∧ List.Forall₂ Shows vs cells := by
  obtain ⟨blocks, h1, -⟩ := Pds4Table.C72_table E l file h hn
  refine ⟨_, h1, fun k f hk => ?_⟩
  have hlt : k < fields.length := (List.getElem?_eq_some_iff.mp hk).1
  have hlen := hu.length_eq
  have hu2 := List.Forall₂.get hu hlt (by omega)
  have hf : fields[k] = f := (List.getElem?_eq_some_iff.mp hk).2
  simp only [List.get_eq_getElem, hf] at hu2
  obtain ⟨hname, vs, hv, hvals⟩ := hu2
  refine ⟨vs, hv, (C90_one_per_record _ _ _ _ _ hv).1, vs.map cellOf, ?_, ?_⟩
  rotate_left
  · rw [List.forall₂_map_right_iff]
    exact List.forall₂_same.mpr (fun x _ => by cases x <;> constructor)
  rw [List.getElem?_append_left (by rw [List.length_map]; omega), List.getElem?_map,
    List.getElem?_eq_getElem (show k < l.uniform.length by omega)]
  simp only [Option.map_some, hname, hvals]

/-! ### limits -/

/-- **C91 (small steps).** If the interval is smaller than half of the distance from the first value (a double of 53 significant bits) to its neighbours,
then all records have the first value, however many there are. -/
theorem C91_no_progress (s : Sampling Num) (n : Nat) (hn : 0 < n) (hs : IsLinear s) (m e : Int) (q : ℚ)
    (hm : 2 ^ 52 < m ∧ m < 2 ^ 53) (he : -1074 ≤ e ∧ e ≤ 900)
    (hp : s.first = .real (some ((m : ℚ) * 2 ^ e))) (hq : s.interval = .real (some q)) (hsmall : |q| < 2 ^ e / 2) :
    ∃ vs, uniformField R L memory s n = .ok vs ∧ vs.length = n ∧ ∀ j < n, vs[j]? = some (.real (some ((m : ℚ) * 2 ^ e))) := by
  have hpos : (0 : ℚ) < 2 ^ e := by positivity
  -- nothing nearer than the first value itself
  have hfix : floatOp R (· + ·) (some ((m : ℚ) * 2 ^ e)) (some q) = some ((m : ℚ) * 2 ^ e) := by
    have hrep : Rep double ((m : ℚ) * 2 ^ e) := ⟨m, e, by
      rw [abs_of_pos (by omega)]; exact hm.2, he.1, by show e ≤ 971; omega, rfl⟩
    have hle : |(m : ℚ) * 2 ^ e + q| < limit double := by
      have h1 : |(m : ℚ) * 2 ^ e| ≤ 2 ^ 53 * 2 ^ e := by
        rw [abs_mul, abs_of_pos hpos]
        refine mul_le_mul_of_nonneg_right ?_ hpos.le
        have : |m| ≤ 2 ^ 53 := by rw [abs_of_pos (by omega)]; omega
        exact_mod_cast this
      have h2 := abs_add_le ((m : ℚ) * 2 ^ e) q
      have h3 : (2 : ℚ) ^ e ≤ 2 ^ (900 : Int) := zpow_le_zpow_right₀ (by norm_num) he.2
      have h4 : (2 : ℚ) ^ (900 : Int) = 2 ^ (900 : Nat) := zpow_natCast 2 900
      have h6 := limit_big (54 + 900) (by norm_num)
      rw [pow_add, ← h4] at h6
      generalize (2 : ℚ) ^ (900 : Int) = X at h3 h6
      generalize limit double = Lm at h6 ⊢
      generalize (2 : ℚ) ^ e = Y at h1 h2 h3 hsmall hpos ⊢
      rw [abs_mul] at h2
      norm_num [abs_mul] at h1 h6
      refine lt_of_le_of_lt h2 ?_
      linarith
    simp only [floatOp, toDouble]
    rw [if_pos hle]
    congr 1
    -- the nearest double
    by_contra hne
    have hnear := R.nearest ((m : ℚ) * 2 ^ e + q) _ hrep
    have e1 : (m : ℚ) * 2 ^ e - ((m : ℚ) * 2 ^ e + q) = -q := by ring
    rw [e1, abs_neg] at hnear
    obtain ⟨k', e', hk, he1, he2, heq⟩ := R.rep ((m : ℚ) * 2 ^ e + q)
    -- at least one unit in the last place away
    have hgap : (2 : ℚ) ^ e ≤ |R.fl ((m : ℚ) * 2 ^ e + q) - (m : ℚ) * 2 ^ e| := by
      rw [heq] at hne ⊢
      by_cases hee : e ≤ e'
      · have hz : (2 : ℚ) ^ e' = 2 ^ (e' - e).toNat * 2 ^ e := by
          rw [← zpow_natCast, ← zpow_add₀ (by norm_num)]
          congr 1
          omega
        rw [hz, ← mul_assoc, ← sub_mul, abs_mul, abs_of_pos hpos]
        have hint : (1 : ℚ) ≤ |(k' : ℚ) * 2 ^ (e' - e).toNat - m| := by
          have h1 : (k' * 2 ^ (e' - e).toNat - m : Int) ≠ 0 := by
            intro h0
            apply hne
            have : ((k' * 2 ^ (e' - e).toNat : Int) : ℚ) = (m : ℚ) := by exact_mod_cast (by omega : k' * 2 ^ (e' - e).toNat = m)
            push_cast at this
            rw [hz, ← mul_assoc, this]
          have h2 : (1 : Int) ≤ |k' * 2 ^ (e' - e).toNat - m| := Int.one_le_abs h1
          exact_mod_cast h2
        calc (2 : ℚ) ^ e = 1 * 2 ^ e := (one_mul _).symm
          _ ≤ _ := mul_le_mul_of_nonneg_right hint hpos.le
      · -- numbers of a smaller exponent are below 2^52 units
        have hz : (2 : ℚ) ^ e' ≤ 2 ^ e / 2 := by
          rw [show (2 : ℚ) ^ e / 2 = 2 ^ (e - 1) by rw [zpow_sub₀ (by norm_num)]; norm_num]
          exact zpow_le_zpow_right₀ (by norm_num) (by omega)
        have hb : |(k' : ℚ) * 2 ^ e'| ≤ 2 ^ 52 * 2 ^ e := by
          rw [abs_mul, abs_of_pos (show (0 : ℚ) < 2 ^ e' by positivity)]
          have hk2 : |(k' : ℚ)| ≤ 2 ^ 53 := by
            have : |k'| ≤ 2 ^ 53 := le_of_lt hk
            exact_mod_cast this
          calc |(k' : ℚ)| * 2 ^ e' ≤ 2 ^ 53 * (2 ^ e / 2) := mul_le_mul hk2 hz (by positivity) (by positivity)
            _ = 2 ^ 52 * 2 ^ e := by ring
        have hmm : (2 ^ 52 + 1) * (2 : ℚ) ^ e ≤ m * 2 ^ e := by
          refine mul_le_mul_of_nonneg_right ?_ hpos.le
          have : (2 ^ 52 + 1 : Int) ≤ m := by omega
          exact_mod_cast this
        have h6 := (abs_le.mp hb).2
        rw [abs_sub_comm]
        refine le_trans ?_ (le_abs_self _)
        linarith
    have htri := abs_sub_abs_le_abs_sub (R.fl ((m : ℚ) * 2 ^ e + q) - (m : ℚ) * 2 ^ e) q
    have e2 : R.fl ((m : ℚ) * 2 ^ e + q) - (m : ℚ) * 2 ^ e - q = R.fl ((m : ℚ) * 2 ^ e + q) - ((m : ℚ) * 2 ^ e + q) := by ring
    rw [e2] at htri
    linarith
  have hrun : ∀ j : Nat, running R q j (some ((m : ℚ) * 2 ^ e)) = some ((m : ℚ) * 2 ^ e) := by
    intro j
    induction j with
    | zero => rfl
    | succ j ih => unfold running; rw [ih]; exact hfix
  refine ⟨_, linear_floats R L memory s n hn hs _ q (Or.inr hp) (Or.inr hq) (Or.inl hp) ?_, by simp, ?_⟩
  · rw [hp]; rfl
  · intro j hj
    rw [List.getElem?_map, List.getElem?_range hj]
    simp only [Option.map_some]
    rw [hrun j]

/-- **C91 (integers of 54 to 64 bits).** Odd integers above 2^53 are not shown as they are, unless first and last value are beyond 64
bits. -/
theorem C91_large_integers (s : Sampling Num) (n : Nat) (hn : 0 < n) (hs : IsLinear s) (a d : Int)
    (ha : s.first = .int a) (hd : s.interval = .int d) (hb : ¬ ∃ b, s.last = .int b ∧ Beyond64 a b)
    (hl : ∀ j < n, |((a + j * d : Int) : ℚ)| < limit double) (j : Nat) (hj : j < n)
    (hodd : (a + j * d) % 2 = 1) (hbig : 2 ^ 53 < |a + j * d|) :
    ∃ vs y, uniformField R L memory s n = .ok vs ∧ vs[j]? = some (.real (some y)) ∧ y ≠ (a + j * d : Int) := by
  obtain ⟨vs, h1, -, h2⟩ := C90_linear_integers R L memory s n hn hs a d ha hd hb hl
  refine ⟨vs, _, h1, (h2 j hj).1, ?_⟩
  intro heq
  obtain ⟨k, e, hk, -, -, hx⟩ := R.rep ((a + j * d : Int) : ℚ)
  rw [heq] at hx
  generalize a + j * d = z at hodd hbig hx
  by_cases he : 0 < e
  · have : (2 : ℚ) ^ e = 2 ^ e.toNat := by
      rw [← zpow_natCast]
      congr 1
      omega
    rw [this] at hx
    have hz : z = k * 2 ^ e.toNat := by exact_mod_cast hx
    obtain ⟨i, hi⟩ : ∃ i, e.toNat = i + 1 := ⟨e.toNat - 1, by omega⟩
    rw [hi, pow_succ, ← mul_assoc] at hz
    omega
  · have h1 : (2 : ℚ) ^ e ≤ 1 := by
      rw [show (1 : ℚ) = 2 ^ (0 : Int) by norm_num]
      exact zpow_le_zpow_right₀ (by norm_num) (by omega)
    have h2 : |(z : ℚ)| ≤ |(k : ℚ)| := by
      rw [hx, abs_mul, abs_of_pos (show (0 : ℚ) < 2 ^ e by positivity)]
      exact mul_le_of_le_one_right (abs_nonneg _) h1
    have h3 : |z| ≤ |k| := by exact_mod_cast h2
    have h4 : |k| < 2 ^ 53 := hk
    omega

theorem linear_overflow (d : Int) (n : Nat) : ∀ (a : Int) (j : Nat), j < n → limit double ≤ |((a + j * d : Int) : ℚ)| →
    linear (pyOps R L false) (.int d) n (.int a) = .error .overflowError := by
  induction n with
  | zero => intro a j hj; omega
  | succ n ih =>
    intro a j hj hbig
    by_cases h0 : |(a : ℚ)| < limit double
    · cases j with
      | zero => simp only [Nat.cast_zero, zero_mul, add_zero] at hbig; exact absurd h0 (not_lt.mpr hbig)
      | succ j =>
        have := ih (a + d) j (by omega) (by
          have e : a + d + (j : Int) * d = a + ((j + 1 : Nat) : Int) * d := by push_cast; ring
          rw [e]; exact hbig)
        simp only [linear, pyOps, storeNum, asFloat, arith, Bool.false_eq_true, if_false, if_pos h0] at this ⊢
        simp only [bind, Except.bind, this]
    · simp only [linear, pyOps, storeNum, asFloat, Bool.false_eq_true, if_false, if_neg h0]
      rfl

/-- **C91 (overflow).** If first value and interval are integers and the value of a record is beyond all doubles, the table cannot be read
(OverflowError), unless first and last value are integers beyond 64 bits. -/
theorem C91_overflow (s : Sampling Num) (n : Nat) (hs : IsLinear s) (a d : Int)
    (ha : s.first = .int a) (hd : s.interval = .int d) (hb : ¬ ∃ b, s.last = .int b ∧ Beyond64 a b)
    (j : Nat) (hj : j < n) (hbig : limit double ≤ |((a + j * d : Int) : ℚ)|) :
    uniformField R L memory s n = .error .overflowError := by
  have hobj : asObject s.first s.last = false := by
    by_contra h
    simp only [Bool.not_eq_false] at h
    obtain ⟨a', b, h1, h2, h3⟩ := (C90_type _ _).mp h
    rw [ha] at h1
    cases h1
    exact hb ⟨b, h2, h3⟩
  unfold uniformField sampled filled
  rw [if_pos (scale_linear s hs), hobj, ha, hd, linear_overflow R L d n a j hj hbig]

/-- **C91 (other scales).** With any other scale, also with blanks around it, there is no error: the values are whatever the memory
held before. -/
theorem C91_unknown_scale (O : Ops V) (memory : Nat → V) (s : Sampling V) (n : Nat) (hn : 0 < n) (t : Str) (ht : s.scale = some t)
    (h : lower t ∉ [c!"linear", c!"logarithmic", c!"exponential"]) :
    sampled O memory s n = .ok ((List.range n).map memory) := by
  refine sampled_ok _ _ _ _ _ hn ?_
  have hsc : scaleOf s = lower t := by unfold scaleOf; rw [ht]
  simp only [List.mem_cons, List.not_mem_nil, or_false, not_or] at h
  unfold filled
  rw [hsc, if_neg h.1, if_neg h.2.1, if_neg h.2.2]

/-- **C91 (no records).** A table without records and with a uniformly sampled field cannot be read. -/
theorem C91_no_records (O : Ops V) (memory : Nat → V) (s : Sampling V) : ∃ e, sampled O memory s 0 = .error e := by
  unfold sampled
  cases filled O memory s 0 with
  | error e => exact ⟨e, rfl⟩
  | ok vs => exact ⟨_, rfl⟩

end Verif.Uniform
