/-
MGS MOC images compressed by a cosine transform (C60, C61).
-/
import Verif.Lemmas.MocDctTree
import Verif.Props.Moc
import Mathlib.Tactic.IntervalCases

namespace Verif.Moc
open Verif Verif.Py Verif.NumPy Verif.Float Verif.Moc.Spec

/-! ### bits -/

/-- the reader at bit `k` of the bytes repeated for ever -/
structure At (data : List Nat) (k : Nat) (b : BitQueue) : Prop where
  pos_le : b.pos ≤ data.length
  count_le : b.count ≤ 31
  aligned : (k + b.count) % 8 = 0
  place : (k + b.count) / 8 % data.length = b.pos % data.length
  used : b.pos = data.length → data.length = 0 ∨ 0 < k + b.count
  bits : (k = 0 ∧ b.count = 0 ∧ b.pos = 0 ∧ b.queue = data.getD 0 0) ∨
    ∀ i, b.queue.testBit i = (decide (i < b.count) && cyclic data (k + i))

theorem at_start (data : List Nat) : At data 0 (bitStart data) :=
  ⟨Nat.zero_le _, by simp [bitStart], by simp [bitStart], by simp [bitStart], by
    intro h; simp only [bitStart] at h; exact .inl h.symm, .inl ⟨rfl, rfl, rfl, rfl⟩⟩

theorem getD_mem_lt {data : List Nat} (hb : ∀ x ∈ data, x < 256) (i : Nat) : data.getD i 0 < 256 := by
  by_cases h : i < data.length
  · rw [List.getD_eq_getElem?_getD, List.getElem?_eq_getElem h]
    exact hb _ (List.getElem_mem h)
  · rw [List.getD_eq_getElem?_getD, List.getElem?_eq_none (by omega)]
    simp

theorem cyclic_byte (data : List Nat) (q r : Nat) (hr : r < 8) (hd : 0 < data.length) :
    cyclic data (8 * q + r) = (data.getD (q % data.length) 0).testBit r := by
  unfold cyclic bit
  have h : (8 * q + r) % (8 * data.length) = 8 * (q % data.length) + r := by
    have h1 := Nat.div_add_mod q data.length
    have h2 := Nat.mod_lt q hd
    rw [Nat.mod_eq_iff]
    right
    refine ⟨by omega, q / data.length, ?_⟩
    rw [show 8 * data.length * (q / data.length) = 8 * (data.length * (q / data.length)) by ring]
    omega
  rw [h, show (8 * (q % data.length) + r) / 8 = q % data.length by omega, show (8 * (q % data.length) + r) % 8 = r by omega]

theorem fill_step {data : List Nat} (hb : ∀ x ∈ data, x < 256) {k : Nat} {b : BitQueue} (h : At data k b) (hc : b.count < 24)
    (hp : b.pos ≠ data.length) :
    At data k ⟨b.queue ||| (data.getD b.pos 0 <<< b.count), b.count + 8, b.pos + 1⟩ := by
  have hlt : b.pos < data.length := by have := h.pos_le; omega
  have hal := h.aligned
  refine ⟨hlt, by simp only; omega, by simp only; omega, ?_, fun _ => .inr (by simp only; omega), .inr ?_⟩
  · simp only
    rw [show (k + (b.count + 8)) / 8 = (k + b.count) / 8 + 1 by omega, Nat.add_mod, h.place, ← Nat.add_mod]
  · intro i
    simp only [Nat.testBit_or, Nat.testBit_shiftLeft]
    have hbyte : ∀ r, 8 ≤ r → (data.getD b.pos 0).testBit r = false := fun r hr =>
      Nat.testBit_lt_two_pow (lt_of_lt_of_le (getD_mem_lt hb _) (by
        rw [show 256 = 2 ^ 8 by norm_num]; exact Nat.pow_le_pow_right (by norm_num) hr))
    have hq : (k + b.count) / 8 % data.length = b.pos := by rw [h.place, Nat.mod_eq_of_lt hlt]
    have hnew : ∀ r, r < 8 → cyclic data (k + b.count + r) = (data.getD b.pos 0).testBit r := by
      intro r hr
      rw [show k + b.count + r = 8 * ((k + b.count) / 8) + r by omega, cyclic_byte data _ r hr (by omega), hq]
    by_cases h8 : i < b.count
    · have e1 : ¬ b.count ≤ i := by omega
      have e2 : i < b.count + 8 := by omega
      rcases h.bits with ⟨_, h0, _⟩ | hbits
      · omega
      · simp [hbits i, h8, e1, e2]
    · have e1 : b.count ≤ i := by omega
      have hlow : b.queue.testBit i = true → (data.getD b.pos 0).testBit (i - b.count) = true ∧ i - b.count < 8 := by
        intro ht
        rcases h.bits with ⟨_, h0, h1, h2⟩ | hbits
        · rw [h2] at ht
          rw [h1, h0, Nat.sub_zero]
          refine ⟨ht, ?_⟩
          by_contra hge
          rw [h1] at hbyte
          rw [hbyte i (by omega)] at ht
          cases ht
        · rw [hbits i] at ht
          simp [h8] at ht
      by_cases h9 : i < b.count + 8
      · have := hnew (i - b.count) (by omega)
        rw [show k + b.count + (i - b.count) = k + i by omega] at this
        rw [this]
        cases hqb : b.queue.testBit i
        · simp [e1, h9]
        · rw [(hlow hqb).1]
          simp [e1, h9]
      · have h0 := hbyte (i - b.count) (by omega)
        cases hqb : b.queue.testBit i
        · simp only [h0, h9, Bool.and_false, Bool.or_false, decide_false, Bool.false_and]
        · have := (hlow hqb).2
          omega

theorem fill_ok {data : List Nat} (hb : ∀ x ∈ data, x < 256) (n : Nat) (hn : n ≤ 24) (fuel : Nat) : ∀ (k : Nat) (b : BitQueue), At data k b →
    24 ≤ b.count + 8 * fuel →
    (∃ b', fill data n fuel b = .ok b' ∧ At data k b' ∧ n ≤ b'.count) ∨
    (fill data n fuel b = .error .valueError ∧ 8 * data.length < k + n) := by
  induction fuel with
  | zero => intro k b h hf; exact .inl ⟨b, rfl, h, by omega⟩
  | succ fuel ih =>
    intro k b h hf
    rw [fill]
    by_cases hc : b.count < 24
    · rw [if_pos hc]
      by_cases hp : b.pos = data.length
      · rw [if_pos hp]
        by_cases hnc : n ≤ b.count
        · rw [if_pos hnc]
          refine .inl ⟨_, rfl, ⟨Nat.zero_le _, h.count_le, h.aligned, ?_, ?_, ?_⟩, hnc⟩
          · have := h.place
            rw [hp, Nat.mod_self] at this
            simpa using this
          · intro h0; exact .inl h0.symm
          · rcases h.bits with ⟨h1, h2, h3, h4⟩ | h1
            · exact .inl ⟨h1, h2, rfl, h4⟩
            · exact .inr h1
        · rw [if_neg hnc]
          refine .inr ⟨rfl, ?_⟩
          rcases h.used hp with h0 | h0
          · omega
          · have hpl := h.place
            rw [hp, Nat.mod_self] at hpl
            have hal := h.aligned
            have hd := Nat.dvd_of_mod_eq_zero hpl
            have := Nat.le_of_dvd (by omega) hd
            omega
      · rw [if_neg hp]
        exact ih k _ (fill_step hb h hc hp) (by simp only; omega)
    · rw [if_neg hc]
      exact .inl ⟨b, rfl, h, by omega⟩

/-- reading `len` bits at `k` gives `v`, or the bytes ended before -/
def Got {α : Type} (data : List Nat) (k : Nat) (r : Except PyErr (α × BitQueue)) (v : α) (len : Nat) : Prop :=
  (∃ b', r = .ok (v, b') ∧ At data (k + len) b') ∨ (r = .error .valueError ∧ 8 * data.length < k + len)

theorem Got.bind {α β : Type} {data : List Nat} {k : Nat} {r : Except PyErr (α × BitQueue)} {v : α} {n m : Nat}
    {f : α × BitQueue → Except PyErr (β × BitQueue)} {w : β} (h : Got data k r v n)
    (hf : ∀ b, At data (k + n) b → Got data (k + n) (f (v, b)) w m) : Got data k (r.bind f) w (n + m) := by
  rcases h with ⟨b, rfl, hb⟩ | ⟨rfl, hlt⟩
  · rcases hf b hb with ⟨b', e, h'⟩ | ⟨e, h'⟩
    · exact .inl ⟨b', e, by rw [← Nat.add_assoc]; exact h'⟩
    · exact .inr ⟨e, by omega⟩
  · exact .inr ⟨rfl, by omega⟩

theorem Got.map {α β : Type} {data : List Nat} {k : Nat} {r : Except PyErr (α × BitQueue)} {v : α} {n : Nat}
    (h : Got data k r v n) (g : α → β) : Got data k (r.map fun s => (g s.1, s.2)) (g v) n := by
  rcases h with ⟨b, rfl, hb⟩ | ⟨rfl, hlt⟩
  · exact .inl ⟨b, rfl, hb⟩
  · exact .inr ⟨rfl, hlt⟩

theorem Got.pure {α : Type} {data : List Nat} {k : Nat} {b : BitQueue} (h : At data k b) (v : α) :
    Got data k (.ok (v, b)) v 0 := .inl ⟨b, rfl, h⟩

theorem mask_eq (n : Nat) (hn : n ≤ 24) : 0xFFFFFFFF >>> (32 - n) = 2 ^ n - 1 := by
  interval_cases n <;> rfl

theorem testBit_ofBits (bs : List Bool) (i : Nat) : (ofBits bs).testBit i = bs.getD i false := by
  induction bs generalizing i with
  | nil => simp [ofBits]
  | cons b bs ih =>
    cases i with
    | zero => cases b <;> simp [ofBits, Nat.testBit_zero]
    | succ i =>
      rw [Nat.testBit_succ, ofBits, show (b.toNat + 2 * ofBits bs) / 2 = ofBits bs by cases b <;> simp <;> omega, ih]
      simp

theorem read_ok {data : List Nat} (hb : ∀ x ∈ data, x < 256) (n : Nat) (h1 : 1 ≤ n) (hn : n ≤ 24) {k : Nat} {b : BitQueue} (h : At data k b)
    (bs : List Bool) (hl : bs.length = n) (hs : Has (cyclic data) k bs) : Got data k (readBits data n b) (ofBits bs) n := by
  have hfill : (∃ b', (if b.count < n then fill data n 3 b else .ok b) = .ok b' ∧ At data k b' ∧ n ≤ b'.count) ∨
      ((if b.count < n then fill data n 3 b else .ok b) = .error .valueError ∧ 8 * data.length < k + n) := by
    by_cases hc : b.count < n
    · rw [if_pos hc]; exact fill_ok hb n hn 3 k b h (by omega)
    · rw [if_neg hc]; exact .inl ⟨b, rfl, h, by omega⟩
  unfold readBits
  rw [if_neg (by omega)]
  rcases hfill with ⟨q, e, hq, hqn⟩ | ⟨e, hlt⟩
  · rw [e]
    have hbits : ∀ i, q.queue.testBit i = (decide (i < q.count) && cyclic data (k + i)) := by
      rcases hq.bits with ⟨_, h0, _⟩ | hbits
      · omega
      · exact hbits
    refine .inl ⟨⟨q.queue >>> n, q.count - n, q.pos⟩, ?_, ?_⟩
    · simp only [Except.map]
      congr 2
      apply Nat.eq_of_testBit_eq
      intro i
      rw [Nat.testBit_and, mask_eq n hn, Nat.testBit_two_pow_sub_one, testBit_ofBits, hbits]
      by_cases hi : i < n
      · rw [← hs i (by omega)]
        have : i < q.count := by omega
        simp [hi, this]
      · rw [List.getD_eq_getElem?_getD, List.getElem?_eq_none (by omega)]
        simp [hi]
    · have ha := hq.aligned
      refine ⟨hq.pos_le, by have := hq.count_le; simp only; omega, by simp only; omega, ?_, ?_, .inr ?_⟩
      · simp only
        rw [show k + n + (q.count - n) = k + q.count by omega]
        exact hq.place
      · intro hp
        simp only at hp ⊢
        rcases hq.used hp with h0 | h0
        · exact .inl h0
        · exact .inr (by omega)
      · intro i
        simp only [Nat.testBit_shiftRight, hbits]
        rw [show k + (n + i) = k + n + i by omega]
        congr 1
        simp only [decide_eq_decide]
        omega
  · rw [e]
    exact .inr ⟨rfl, hlt⟩

theorem length_bitsOfNat (n x : Nat) : (bitsOfNat n x).length = n := by simp [bitsOfNat]

theorem getD_map_range {α : Type} (n i : Nat) (f : Nat → α) (d : α) : ((List.range n).map f).getD i d = if i < n then f i else d := by
  by_cases h : i < n
  · simp [List.getD_eq_getElem?_getD, h]
  · simp [List.getD_eq_getElem?_getD, h]

theorem ofBits_bitsOfNat (n x : Nat) (hx : x < 2 ^ n) : ofBits (bitsOfNat n x) = x := by
  apply Nat.eq_of_testBit_eq
  intro i
  rw [testBit_ofBits, bitsOfNat, getD_map_range]
  by_cases h : i < n
  · rw [if_pos h]
  · rw [if_neg h, Nat.testBit_lt_two_pow (lt_of_lt_of_le hx (Nat.pow_le_pow_right (by norm_num) (by omega)))]

theorem read_number {data : List Nat} (hb : ∀ x ∈ data, x < 256) (n : Nat) (h1 : 1 ≤ n) (hn : n ≤ 24) {k : Nat} {b : BitQueue} (h : At data k b)
    (x : Nat) (hx : x < 2 ^ n) (hs : Has (cyclic data) k (bitsOfNat n x)) : Got data k (readBits data n b) x n := by
  have := read_ok hb n h1 hn h _ (length_bitsOfNat n x) hs
  rwa [ofBits_bitsOfNat n x hx] at this

theorem getD_l {α : Type} (a b : List α) (i : Nat) (d : α) (h : i < a.length) : (a ++ b).getD i d = a.getD i d := by
  simp [List.getD_eq_getElem?_getD, List.getElem?_append_left h]

theorem getD_r {α : Type} (a b : List α) (i : Nat) (d : α) (h : a.length ≤ i) : (a ++ b).getD i d = b.getD (i - a.length) d := by
  simp [List.getD_eq_getElem?_getD, List.getElem?_append_right h]

theorem has_append (s : Nat → Bool) (k : Nat) (a b : List Bool) : Has s k (a ++ b) ↔ Has s k a ∧ Has s (k + a.length) b := by
  unfold Has
  constructor
  · intro h
    refine ⟨fun i hi => ?_, fun i hi => ?_⟩
    · rw [h i (by simp; omega), getD_l a b i false hi]
    · rw [Nat.add_assoc, h (a.length + i) (by simp; omega), getD_r a b _ false (by omega)]
      congr 1; omega
  · rintro ⟨h1, h2⟩ i hi
    by_cases hia : i < a.length
    · rw [h1 i hia, getD_l a b i false hia]
    · have := h2 (i - a.length) (by simp at hi; omega)
      rw [show k + a.length + (i - a.length) = k + i by omega] at this
      rw [this, getD_r a b _ false (by omega)]

/-! ### coefficients -/

theorem walk_ok {data : List Nat} (hb : ∀ x ∈ data, x < 256) (t : Tree) : ∀ (bits : List Bool) (v : Int) (k : Nat) (b : BitQueue),
    t.find bits = some v → Has (cyclic data) k bits → At data k b → Got data k (walkTree data t b) v bits.length := by
  induction t with
  | leaf w =>
    intro bits v k b hf _ h
    cases bits with
    | nil =>
      simp only [Tree.find, Option.some.injEq] at hf
      subst hf
      exact Got.pure h w
    | cons => simp [Tree.find] at hf
  | node z o ihz iho =>
    intro bits v k b hf hs h
    cases bits with
    | nil => simp [Tree.find] at hf
    | cons x xs =>
      rw [show x :: xs = [x] ++ xs from rfl, has_append] at hs
      rw [walkTree, List.length_cons, Nat.add_comm]
      refine Got.bind (read_ok hb 1 le_rfl (by omega) h [x] rfl hs.1) fun b' h' => ?_
      cases x
      · simp only [ofBits, Bool.toNat_false, Nat.mul_zero, Nat.add_zero, if_true]
        exact ihz xs v _ b' (by simpa [Tree.find] using hf) hs.2 h'
      · simp only [ofBits, Bool.toNat_true, Nat.mul_zero, Nat.add_zero, one_ne_zero, if_false]
        exact iho xs v _ b' (by simpa [Tree.find] using hf) hs.2 h'

theorem or_high (m : Nat) (hm : m < 32768) : m ||| 0x8000 = m + 32768 := by
  rw [Nat.or_comm]
  have := Nat.two_pow_add_eq_or_of_lt (i := 15) (show m < 2 ^ 15 by omega) 1
  rw [show 2 ^ 15 * 1 = 32768 by norm_num] at this
  omega

theorem and_low (m : Nat) (hm : m < 32768) : m &&& 0x7FFF = m := by
  rw [show 0x7FFF = 2 ^ 15 - 1 by norm_num, Nat.and_two_pow_sub_one_eq_mod, Nat.mod_eq_of_lt (by omega)]

theorem code_sizes : ∀ v, v < 8 → (codeOf v).1 % 2 = 1 ∧ 3 ≤ (codeOf v).1 ∧ (codeOf v).1 ≤ 609 := by
  intro v hv
  interval_cases v <;> exact ⟨by decide, by decide, by decide⟩

theorem length_codeword (code len : List Nat) (n : Nat) : (codeword code len n).length = len.getD n 0 := by simp [codeword]

theorem coef_ok {data : List Nat} (hb : ∀ x ∈ data, x < 256) (size : Nat) (len code : List Nat) (t : Tree) (h1 : size % 2 = 1) (h2 : 3 ≤ size)
    (h3 : size ≤ 609) (ht : ∀ n, n < size → t.find (codeword code len n) = some (entryValue size n)) (c : Coef) (hc : c.Fits size)
    (k : Nat) (b : BitQueue) (hs : Has (cyclic data) k (c.bits size len code)) (h : At data k b) :
    Got data k (readCoef data t b) c.value (c.bits size len code).length := by
  unfold readCoef
  cases c with
  | small c =>
    obtain ⟨c1, c2⟩ := hc
    have hw := walk_ok hb t _ _ k b (ht (c + (size / 2 : Nat)).toNat (by omega)) hs h
    have hv : entryValue size (c + (size / 2 : Nat)).toNat = c := by
      unfold entryValue
      rw [if_neg (by omega), if_neg (by omega)]
      omega
    rw [hv] at hw
    have := Got.bind (m := 0) (w := c) hw (f := fun r =>
      if r.1 = largeNegative then (readBits data 15 r.2).map fun s => (((s.1 ||| 0x8000 : Nat) : Int) - 0x10000, s.2)
      else if r.1 = largePositive then (readBits data 15 r.2).map fun s => (((s.1 &&& 0x7FFF : Nat) : Int), s.2)
      else .ok r) (fun b' h' => by
        have n1 : c ≠ largeNegative := by unfold largeNegative; omega
        have n2 : c ≠ largePositive := by unfold largePositive; omega
        simp only [n1, n2, if_false]
        exact Got.pure h' c)
    exact this
  | negative m =>
    simp only [Coef.bits, has_append] at hs
    have hw := walk_ok hb t _ _ k b (ht 0 (by omega)) hs.1 h
    rw [show entryValue size 0 = largeNegative by simp [entryValue]] at hw
    rw [Coef.bits, List.length_append, length_bitsOfNat]
    refine Got.bind hw fun b' h' => ?_
    simp only [if_true]
    have := (read_number hb 15 (by omega) (by omega) h' m hc hs.2).map (fun x => (((x ||| 0x8000 : Nat) : Int) - 0x10000))
    rw [or_high m hc] at this
    have e : ((m + 32768 : Nat) : Int) - 0x10000 = (Coef.negative m).value := by simp only [Coef.value]; omega
    rw [e] at this
    exact this
  | positive m =>
    simp only [Coef.bits, has_append] at hs
    have hw := walk_ok hb t _ _ k b (ht (size - 1) (by omega)) hs.1 h
    rw [show entryValue size (size - 1) = largePositive by rw [entryValue, if_neg (by omega), if_pos rfl]] at hw
    rw [Coef.bits, List.length_append, length_bitsOfNat]
    refine Got.bind hw fun b' h' => ?_
    have n1 : ¬ largePositive = largeNegative := by decide
    simp only [n1, if_false, if_true]
    have := (read_number hb 15 (by omega) (by omega) h' m hc hs.2).map (fun x => ((x &&& 0x7FFF : Nat) : Int))
    rw [and_low m hc] at this
    exact this

/-- the trees have the codewords of the tables -/
def GoodTrees (trees : List Tree) : Prop := ∀ v, v < 8 → ∃ t, trees[v]? = some t ∧
    ∀ n, n < (codeOf v).1 → t.find (codeword (codeOf v).2.2 (codeOf v).2.1 n) = some (entryValue (codeOf v).1 n)

theorem value_bounds {size : Nat} (h3 : size ≤ 609) {c : Coef} (hc : c.Fits size) : -32768 ≤ c.value ∧ c.value ≤ 32767 := by
  cases c <;> simp only [Coef.Fits, Coef.value] at hc ⊢ <;> omega

theorem product_fits (c : Int) (s : Nat) (h1 : -32768 ≤ c) (h2 : c ≤ 32767) (hs : s < 65536) : wrap int32 (c * s) = c * s := by
  have a1 : c * s ≤ 32767 * 65535 := by nlinarith
  have a2 : -(32768 * 65535) ≤ c * s := by nlinarith
  have e : wrap int32 (c * s) = (c * s - -2147483648) % 4294967296 + -2147483648 := rfl
  rw [e]
  omega

theorem coefs_ok {data : List Nat} (hb : ∀ x ∈ data, x < 256) {trees : List Tree} (hT : GoodTrees trees) (spacing : Nat) (hsp : spacing < 65536)
    (cs : List Coef) : ∀ (vs : List Nat) (k : Nat) (b : BitQueue), (∀ v ∈ vs, v < 8) → CoefsFit vs cs → Has (cyclic data) k (coefBits vs cs) →
    At data k b → Got data k (readCoefs data trees spacing (vs.take cs.length) b) (cs.map fun c => c.value * (spacing : Int)) (coefBits vs cs).length := by
  induction cs with
  | nil =>
    intro vs k b _ _ _ h
    have : coefBits vs [] = [] := by cases vs <;> rfl
    rw [this]
    exact Got.pure h []
  | cons c cs ih =>
    intro vs k b hv hf hs h
    cases vs with
    | nil => exact absurd hf (by simp [CoefsFit])
    | cons v vs =>
      obtain ⟨t, e, ht⟩ := hT v (hv v (by simp))
      obtain ⟨s1, s2, s3⟩ := code_sizes v (hv v (by simp))
      rw [coefBits, has_append] at hs
      rw [CoefsFit] at hf
      rw [List.length_cons, List.take_succ_cons, readCoefs, e, coefBits, List.length_append, List.map_cons]
      refine Got.bind (coef_ok hb _ _ _ t s1 s2 s3 ht c hf.1 k b hs.1 h) fun b' h' => ?_
      have := (ih vs _ b' (fun x hx => hv x (by simp [hx])) hf.2 hs.2 h').map (fun l => wrap int32 (c.value * spacing) :: l)
      obtain ⟨b1, b2⟩ := value_bounds s3 hf.1
      simp only [product_fits _ _ b1 b2 hsp] at this ⊢
      exact this

/-! ### blocks -/

theorem rep_grid (k : Int) (hk : |k| < 2 ^ 53) : Rep double ((k : ℚ) / 2 ^ 20) :=
  ⟨k, -20, hk, by decide, by decide, by rw [zpow_neg]; rfl⟩

theorem rep_whole (k : Int) (hk : |k| < 2 ^ 53) : Rep double (k : ℚ) := ⟨k, 0, hk, by decide, by decide, by simp⟩

/-- rounding of numbers that are not large -/
theorem fl_near (R : Rounding double) (x : ℚ) (hx : |x| ≤ 2 ^ 31) : |R.fl x - x| ≤ 1 / 2 ^ 20 := by
  have h1 := Int.floor_le (x * 2 ^ 20)
  have h2 := Int.lt_floor_add_one (x * 2 ^ 20)
  have hb := abs_le.1 hx
  have hk : |⌊x * 2 ^ 20⌋| < 2 ^ 53 := by
    have a1 : (⌊x * 2 ^ 20⌋ : ℚ) ≤ 2 ^ 31 * 2 ^ 20 := h1.trans (mul_le_mul_of_nonneg_right hb.2 (by positivity))
    have a2 : -(2 ^ 31 * 2 ^ 20) - 1 ≤ (⌊x * 2 ^ 20⌋ : ℚ) := by linarith [mul_le_mul_of_nonneg_right hb.1 (show (0 : ℚ) ≤ 2 ^ 20 by positivity)]
    rw [abs_lt]
    constructor
    · have : (-(2 ^ 53) : ℚ) < (⌊x * 2 ^ 20⌋ : ℚ) := by norm_num at a2 ⊢; linarith
      exact_mod_cast this
    · have : (⌊x * 2 ^ 20⌋ : ℚ) < 2 ^ 53 := by norm_num at a1 ⊢; linarith
      exact_mod_cast this
  refine (R.nearest x _ (rep_grid _ hk)).trans ?_
  rw [abs_le]
  constructor
  · rw [neg_le_sub_iff_le_add, ← add_div, le_div_iff₀ (by positivity)]
    linarith
  · rw [sub_le_iff_le_add, div_le_iff₀ (by positivity), add_mul, div_mul_cancel₀ _ (by positivity)]
    linarith

/-- the mean does not depend on rounding -/
theorem dc_value (R : Rounding double) (l : Level) (h1 : l.minDc < 65536) (h2 : l.maxDc < 65536) (dc : Nat) (hd : dc < 256) :
    dcValue R dc l.minDc ((l.maxDc : Int) - l.minDc) = l.dc dc := by
  unfold dcValue Level.dc
  set N : Int := (dc : Int) * ((l.maxDc : Int) - l.minDc) with hN
  have hsum : 0 ≤ 255 * (l.minDc : Int) + N := by
    have : 255 * (l.minDc : Int) + N = (255 - dc) * l.minDc + dc * l.maxDc := by rw [hN]; ring
    rw [this]
    have : (0 : Int) ≤ 255 - dc := by omega
    positivity
  have hNb : -16711425 ≤ N ∧ N ≤ 16711425 := by
    constructor <;> nlinarith
  obtain ⟨m, r, hr0, hr1, hm⟩ : ∃ m r : Int, 0 ≤ r ∧ r < 255 ∧ N = 255 * m + r :=
    ⟨N / 255, N % 255, by omega, by omega, by omega⟩
  have hgoal : (255 * (l.minDc : Int) + N) / 255 = l.minDc + m := by omega
  have hpos : 0 ≤ (l.minDc : Int) + m := by omega
  rw [hgoal]
  have hmb : |m| ≤ 65536 := by rw [abs_le]; omega
  have hmb' := abs_le.1 hmb
  by_cases hr : r = 0
  · have e1 : ((N : Int) : ℚ) / 255 = (m : Int) := by rw [hm, hr]; push_cast; ring
    rw [e1, R.exact _ (rep_whole m (by rw [abs_lt]; omega))]
    have e2 : ((m : Int) : ℚ) + ((l.minDc : Int) : ℚ) = ((l.minDc + m : Int) : ℚ) := by push_cast; ring
    rw [e2, R.exact _ (rep_whole _ (by rw [abs_lt]; omega)), truncate, if_pos (by exact_mod_cast hpos), Int.floor_intCast]
  · have hq : ((N : Int) : ℚ) / 255 = m + r / 255 := by rw [hm]; push_cast; ring
    have r1 : (1 : ℚ) ≤ r := by exact_mod_cast (by omega : (1 : Int) ≤ r)
    have r2 : (r : ℚ) ≤ 254 := by exact_mod_cast (by omega : r ≤ 254)
    have m1 : (-65536 : ℚ) ≤ m := by exact_mod_cast hmb'.1
    have m2 : (m : ℚ) ≤ 65536 := by exact_mod_cast hmb'.2
    have n1 : (0 : ℚ) ≤ ((l.minDc : Int) : ℚ) := by positivity
    have n2 : ((l.minDc : Int) : ℚ) ≤ 65536 := by exact_mod_cast (by omega : (l.minDc : Int) ≤ 65536)
    have e : ((l.minDc + m : Int) : ℚ) = ((l.minDc : Int) : ℚ) + m := by push_cast; rfl
    generalize ((l.minDc : Int) : ℚ) = D at n1 n2 e ⊢
    rw [hq]
    generalize hQ : (m : ℚ) + r / 255 = Q
    have q1 : (m : ℚ) + 1 / 255 ≤ Q := by rw [← hQ]; linarith
    have q2 : Q ≤ (m : ℚ) + 254 / 255 := by rw [← hQ]; linarith
    have e20 : (1 : ℚ) / 2 ^ 20 = 1 / 1048576 := by norm_num
    have e31 : (2 : ℚ) ^ 31 = 2147483648 := by norm_num
    have near := fl_near R
    rw [e20, e31] at near
    obtain ⟨f1, f2⟩ := abs_le.1 (near Q (by rw [abs_le]; constructor <;> linarith))
    obtain ⟨f3, f4⟩ := abs_le.1 (near (R.fl Q + D) (by rw [abs_le]; constructor <;> linarith))
    generalize R.fl (R.fl Q + D) = y at f3 f4 ⊢
    have hlo : ((l.minDc + m : Int) : ℚ) ≤ y := by rw [e]; linarith
    have hhi : y < ((l.minDc + m : Int) : ℚ) + 1 := by rw [e]; linarith
    rw [truncate, if_pos (le_trans (by exact_mod_cast hpos) hlo)]
    exact Int.floor_eq_iff.2 ⟨hlo, hhi⟩

theorem trans_length : trans.length = 256 := by decide +kernel

theorem map_trans {α : Type} (f : Nat → α) : trans.map f = (List.range 256).map fun i => f (trans.getD i 0) := by
  apply List.ext_getElem
  · simp [trans_length]
  · intro i h1 h2
    have : i < trans.length := by simpa using h1
    simp [List.getD_eq_getElem?_getD, this]

theorem block_ok (R : Rounding double) (inv : List Int → List Nat) {data : List Nat} (hb : ∀ x ∈ data, x < 256) {trees : List Tree}
    (hT : GoodTrees trees) (spacing : Nat) (hsp : spacing < 65536) (l : Level) (hl : l.Fits) (bl : Block) (hd : bl.dc < 256)
    (hc : bl.coefs.length ≤ 255) (hf : CoefsFit l.vars bl.coefs) (k : Nat) (b : BitQueue) (h : At data k b)
    (hs : Has (cyclic data) k (bl.bits l)) :
    Got data k (readBlock R inv data trees 1 spacing l.minDc ((l.maxDc : Int) - l.minDc) l.vars b)
      (inv ((List.range 256).map (bl.placed l spacing))) (bl.bits l).length := by
  obtain ⟨h1, h2, h3, h4⟩ := hl
  unfold readBlock
  rw [Block.bits, has_append, has_append] at hs
  simp only [List.length_append, length_bitsOfNat] at hs
  rw [Block.bits, List.length_append, List.length_append, length_bitsOfNat, length_bitsOfNat, Nat.add_assoc]
  refine Got.bind (read_number hb 8 (by omega) (by omega) h bl.dc (by omega) hs.1.1) fun b1 hb1 => ?_
  refine Got.bind (read_number hb 8 (by omega) (by omega) hb1 (255 - bl.coefs.length) (by omega) hs.1.2) fun b2 hb2 => ?_
  simp only
  rw [show 255 - (255 - bl.coefs.length) = bl.coefs.length by omega, ← Nat.add_zero (coefBits l.vars bl.coefs).length]
  refine Got.bind (coefs_ok hb hT spacing hsp bl.coefs l.vars _ b2 h4 hf (by rw [Nat.add_assoc]; exact hs.2) hb2) fun b3 hb3 => ?_
  simp only [if_true]
  have : reorder (dcValue R bl.dc l.minDc ((l.maxDc : Int) - l.minDc) :: bl.coefs.map (fun c => c.value * (spacing : Int)) ++
      List.replicate (255 - (bl.coefs.map fun c => c.value * (spacing : Int)).length) 0) = (List.range 256).map (bl.placed l spacing) := by
    unfold reorder
    rw [map_trans]
    apply List.map_congr_left
    intro i _
    unfold Block.placed Block.coefficients
    generalize trans.getD i 0 = j
    rw [dc_value R l h1 h2 bl.dc hd]
    cases j with
    | zero => simp
    | succ j =>
      rw [if_neg (by omega), Nat.add_sub_cancel]
      by_cases hj : j < bl.coefs.length
      · simp [List.getD_eq_getElem?_getD, List.getElem?_append_left, hj]
      · rw [List.getD_eq_getElem?_getD, List.getD_eq_getElem?_getD, List.getElem?_eq_none (l := List.map _ _) (by simp; omega)]
        rw [List.cons_append, List.getElem?_cons_succ, List.getElem?_append_right (by simp; omega), List.getElem?_replicate]
        split <;> rfl
  rw [this]
  exact Got.pure hb3 _

/-! ### fragments -/

theorem groups_ok {data : List Nat} (hb : ∀ x ∈ data, x < 256) (gs : List Nat) : ∀ (k : Nat) (b : BitQueue), (∀ g ∈ gs, g < 8) →
    Has (cyclic data) k (gs.flatMap (bitsOfNat 3)) → At data k b →
    Got data k (readGroups data gs.length b) gs (gs.flatMap (bitsOfNat 3)).length := by
  induction gs with
  | nil => intro k b _ _ h; exact Got.pure h []
  | cons g gs ih =>
    intro k b hg hs h
    rw [List.flatMap_cons, has_append, length_bitsOfNat] at hs
    rw [List.length_cons, readGroups, List.flatMap_cons, List.length_append, length_bitsOfNat]
    refine Got.bind (read_number hb 3 (by omega) (by omega) h g (hg g (by simp)) hs.1) fun b' h' => ?_
    exact (ih _ b' (fun x hx => hg x (by simp [hx])) hs.2 h').map (fun l => g :: l)

theorem level_head_ok {data : List Nat} (hb : ∀ x ∈ data, x < 256) (l : Level) (hl : l.Fits) (k : Nat) (b : BitQueue) (h : At data k b)
    (hs : Has (cyclic data) k l.bits) : Got data k (readLevel data b) (l.minDc, l.maxDc, l.vars) l.bits.length := by
  obtain ⟨h1, h2, h3, h4⟩ := hl
  unfold readLevel
  rw [Level.bits, has_append, has_append] at hs
  simp only [List.length_append, length_bitsOfNat] at hs
  rw [Level.bits, List.length_append, List.length_append, length_bitsOfNat, length_bitsOfNat, Nat.add_assoc]
  refine Got.bind (read_number hb 16 (by omega) (by omega) h l.minDc (by omega) hs.1.1) fun b1 hb1 => ?_
  refine Got.bind (read_number hb 16 (by omega) (by omega) hb1 l.maxDc (by omega) hs.1.2) fun b2 hb2 => ?_
  have := groups_ok hb l.vars _ b2 h4 (by rw [Nat.add_assoc]; exact hs.2) hb2
  rw [h3] at this
  exact this.map (fun v => (l.minDc, l.maxDc, v))

/-- what is written so far -/
def paint (xSize : Nat) (im : Image) (ps : List ((Nat × Nat) × List Nat)) : Image :=
  ps.foldl (fun im p => writeBlock im p.1.1 p.1.2 xSize p.2) im

theorem paint_append (xSize : Nat) (im : Image) (a b : List ((Nat × Nat) × List Nat)) :
    paint xSize im (a ++ b) = paint xSize (paint xSize im a) b := by simp [paint]

/-- blocks with their places, as the loops see them -/
def marks (pb : List ((Nat × Nat) × Block)) : List ((Nat × Nat) × Nat) := pb.map fun p => (p.1, p.2.level)

/-- the blocks of a level -/
def onLevel (pb : List ((Nat × Nat) × Block)) (lv : Nat) : List ((Nat × Nat) × Block) := pb.filter fun p => p.2.level == lv

theorem level_loop_ok {data : List Nat} (read : BitQueue → Except PyErr (List Nat × BitQueue)) (bits : Block → List Bool) (pix : Block → List Nat)
    (xSize lv : Nat) (pb : List ((Nat × Nat) × Block))
    (hread : ∀ p ∈ onLevel pb lv, ∀ k b, At data k b → Has (cyclic data) k (bits p.2) → Got data k (read b) (pix p.2) (bits p.2).length) :
    ∀ (im : Image) (k : Nat) (b : BitQueue), At data k b → Has (cyclic data) k ((onLevel pb lv).flatMap fun p => bits p.2) →
    (∃ b', levelLoop read xSize lv (marks pb) im b = (paint xSize im ((onLevel pb lv).map fun p => (p.1, pix p.2)), .ok b') ∧
      At data (k + ((onLevel pb lv).flatMap fun p => bits p.2).length) b') ∨
    (∃ ps, ps <+: (onLevel pb lv).map (fun p => (p.1, pix p.2)) ∧ levelLoop read xSize lv (marks pb) im b = (paint xSize im ps, .error .valueError) ∧
      8 * data.length < k + ((onLevel pb lv).flatMap fun p => bits p.2).length) := by
  induction pb with
  | nil => intro im k b h _; exact .inl ⟨b, rfl, h⟩
  | cons p pb ih =>
    intro im k b h hs
    by_cases hp : p.2.level = lv
    · have he : onLevel (p :: pb) lv = p :: onLevel pb lv := by simp [onLevel, hp]
      rw [he] at hs hread ⊢
      simp only [List.flatMap_cons, List.map_cons, List.length_append] at hs ⊢
      rw [has_append] at hs
      rw [marks, List.map_cons, levelLoop, if_pos hp]
      rcases hread p (by simp) k b h hs.1 with ⟨b', e, h'⟩ | ⟨e, hlt⟩
      · rw [e]
        simp only
        rcases ih (fun q hq => hread q (by simp [hq])) (writeBlock im p.1.1 p.1.2 xSize (pix p.2)) _ b' h' hs.2 with
          ⟨b2, e2, h2⟩ | ⟨ps, hps, e2, hlt⟩
        · refine .inl ⟨b2, ?_, by rw [← Nat.add_assoc]; exact h2⟩
          rw [← marks, e2]
          rfl
        · refine .inr ⟨(p.1, pix p.2) :: ps, ?_, ?_, by omega⟩
          · exact List.cons_prefix_cons.2 ⟨rfl, hps⟩
          · rw [← marks, e2]
            rfl
      · rw [e]
        refine .inr ⟨[], List.nil_prefix, rfl, by omega⟩
    · have he : onLevel (p :: pb) lv = onLevel pb lv := by simp [onLevel, hp]
      rw [he] at hs hread ⊢
      rw [marks, List.map_cons, levelLoop, if_neg hp, ← marks]
      exact ih hread im k b h hs

/-- the pixels of a block -/
def shown (inv : List Int → List Nat) (spacing : Nat) (f : Coded) (b : Block) : List Nat :=
  inv ((List.range 256).map (b.placed (f.levels b.level) spacing))

/-- the blocks in the order in which they are written -/
def written (inv : List Int → List Nat) (spacing : Nat) (f : Coded) (pb : List ((Nat × Nat) × Block)) (ls : List Nat) :
    List ((Nat × Nat) × List Nat) :=
  ls.flatMap fun lv => (onLevel pb lv).map fun p => (p.1, shown inv spacing f p.2)

theorem any_marks (pb : List ((Nat × Nat) × Block)) (lv : Nat) :
    ((marks pb).any fun p => p.2 == lv) = !(onLevel pb lv).isEmpty := by
  induction pb with
  | nil => rfl
  | cons p pb ih =>
    simp only [marks, List.map_cons, List.any_cons, onLevel, List.filter_cons]
    by_cases h : p.2.level = lv
    · simp [h]
    · simp only [marks, onLevel] at ih
      simp [h, ih]

theorem onLevel_blocks (pb : List ((Nat × Nat) × Block)) (lv : Nat) :
    (onLevel pb lv).map (·.2) = (pb.map (·.2)).filter fun b => b.level == lv := by
  simp [onLevel, List.filter_map, Function.comp_def]

theorem levelBits_eq (f : Coded) (pb : List ((Nat × Nat) × Block)) (hpb : pb.map (·.2) = f.blocks) (lv : Nat) :
    f.levelBits lv = if (onLevel pb lv).isEmpty then [] else
      (f.levels lv).bits ++ (onLevel pb lv).flatMap fun p => p.2.bits (f.levels lv) := by
  unfold Coded.levelBits
  have h1 : (f.blocks.any fun b => b.level == lv) = !(onLevel pb lv).isEmpty := by
    rw [← any_marks, ← hpb]
    simp [marks, List.any_map, Function.comp_def]
  have h2 : (f.blocks.filter fun b => b.level == lv).flatMap (Block.bits (f.levels lv)) =
      (onLevel pb lv).flatMap fun p => p.2.bits (f.levels lv) := by
    rw [← hpb, ← onLevel_blocks, List.flatMap_map]
  rw [h1, h2]
  cases (onLevel pb lv).isEmpty <;> simp

theorem levels_ok (R : Rounding double) (inv : List Int → List Nat) {data : List Nat} (hb : ∀ x ∈ data, x < 256) {trees : List Tree}
    (hT : GoodTrees trees) (spacing : Nat) (hsp : spacing < 65536) (xSize n : Nat) (f : Coded) (hf : f.Fits n)
    (pb : List ((Nat × Nat) × Block)) (hpb : pb.map (·.2) = f.blocks) (ls : List Nat) (hls : ∀ l ∈ ls, l < n) :
    ∀ (im : Image) (k : Nat) (b : BitQueue), At data k b → Has (cyclic data) k (ls.flatMap f.levelBits) →
    (∃ b', levels R inv data trees 1 spacing xSize (marks pb) ls im b = (paint xSize im (written inv spacing f pb ls), .ok b') ∧
      At data (k + (ls.flatMap f.levelBits).length) b') ∨
    (∃ ps, ps <+: written inv spacing f pb ls ∧
      levels R inv data trees 1 spacing xSize (marks pb) ls im b = (paint xSize im ps, .error .valueError) ∧
      8 * data.length < k + (ls.flatMap f.levelBits).length) := by
  induction ls with
  | nil => intro im k b h _; exact .inl ⟨b, rfl, h⟩
  | cons lv ls ih =>
    intro im k b h hs
    rw [List.flatMap_cons, has_append, levelBits_eq f pb hpb] at hs
    have hw : written inv spacing f pb (lv :: ls) =
      (onLevel pb lv).map (fun p => (p.1, shown inv spacing f p.2)) ++ written inv spacing f pb ls := rfl
    rw [levels, any_marks, hw, List.flatMap_cons, List.length_append, levelBits_eq f pb hpb]
    by_cases he : (onLevel pb lv).isEmpty = true
    · have h0 : onLevel pb lv = [] := List.isEmpty_iff.1 he
      simp only [he, if_true] at hs ⊢
      simp only [Bool.not_true, Bool.false_eq_true, if_false, h0, List.map_nil, List.nil_append, List.length_nil, Nat.zero_add] at hs ⊢
      exact ih (fun l hl => hls l (by simp [hl])) im k b h hs.2
    · have he' : (onLevel pb lv).isEmpty = false := by simpa using he
      simp only [he', Bool.false_eq_true, if_false] at hs ⊢
      simp only [Bool.not_false, if_true, List.length_append] at hs ⊢
      rw [has_append] at hs
      rcases level_head_ok hb (f.levels lv) (hf.1 lv (hls lv (by simp))) k b h hs.1.1 with ⟨b1, e1, h1⟩ | ⟨e1, hlt⟩
      · rw [e1]
        simp only
        have hl := level_loop_ok (data := data)
          (readBlock R inv data trees 1 spacing (f.levels lv).minDc (((f.levels lv).maxDc : Int) - (f.levels lv).minDc) (f.levels lv).vars)
          (Block.bits (f.levels lv)) (shown inv spacing f) xSize lv pb (by
            intro p hp k b hat hhas
            have hlv : p.2.level = lv := by simpa [onLevel] using (List.mem_filter.1 hp).2
            have hmem : p.2 ∈ f.blocks := by
              rw [← hpb]
              exact List.mem_map.2 ⟨p, (List.mem_filter.1 hp).1, rfl⟩
            obtain ⟨g1, g2, g3, g4⟩ := hf.2 p.2 hmem
            rw [hlv] at g4
            have := block_ok R inv hb hT spacing hsp (f.levels lv) (hf.1 lv (hls lv (by simp))) p.2 g2 g3 g4 k b hat hhas
            rw [shown, hlv]
            exact this) im _ b1 h1 hs.1.2
        rcases hl with ⟨b2, e2, h2⟩ | ⟨ps, hps, e2, hlt⟩
        · rw [e2]
          simp only
          rcases ih (fun l hl => hls l (by simp [hl])) (paint xSize im ((onLevel pb lv).map fun p => (p.1, shown inv spacing f p.2))) _ b2 h2
            (by rw [← Nat.add_assoc] at hs; exact hs.2) with ⟨b3, e3, h3⟩ | ⟨ps, hps, e3, hlt⟩
          · refine .inl ⟨b3, ?_, ?_⟩
            · rw [e3, paint_append]
            · rw [← Nat.add_assoc, ← Nat.add_assoc]; exact h3
          · refine .inr ⟨(onLevel pb lv).map (fun p => (p.1, shown inv spacing f p.2)) ++ ps, ?_, ?_, by omega⟩
            · exact List.prefix_append_right_inj _ |>.2 hps
            · rw [e3, paint_append]
        · rw [e2]
          refine .inr ⟨ps, hps.trans (List.prefix_append _ _), rfl, by omega⟩
      · rw [e1]
        exact .inr ⟨[], List.nil_prefix, rfl, by omega⟩

/-! ### pixels -/

theorem index_inj (w a b c d : Nat) (hb : b < w) (hd : d < w) : a * w + b = c * w + d ↔ a = c ∧ b = d := by
  constructor
  · intro h
    have h1 : (a * w + b) / w = a := by rw [Nat.add_comm, Nat.add_mul_div_right _ _ (by omega), Nat.div_eq_of_lt hb, Nat.zero_add]
    have h2 : (c * w + d) / w = c := by rw [Nat.add_comm, Nat.add_mul_div_right _ _ (by omega), Nat.div_eq_of_lt hd, Nat.zero_add]
    have hac : a = c := by rw [← h1, ← h2, h]
    subst hac
    exact ⟨rfl, by omega⟩
  · rintro ⟨rfl, rfl⟩; rfl

theorem row_pixel (xSize x yy : Nat) (g : Nat → Nat) (r c : Nat) (hc : c < xSize) (m : Nat) (hx : x + m ≤ xSize) (im : Image) :
    ((List.range m).foldl (fun im x0 => put im (yy * xSize + (x + x0)) (g x0)) im) (r * xSize + c) =
      if r = yy ∧ x ≤ c ∧ c < x + m then g (c - x) else im (r * xSize + c) := by
  induction m with
  | zero => rw [if_neg (by omega)]; rfl
  | succ m ih =>
    rw [List.range_succ, List.foldl_append, List.foldl_cons, List.foldl_nil, put, ih (by omega)]
    by_cases h : r = yy ∧ c = x + m
    · obtain ⟨rfl, rfl⟩ := h
      rw [if_pos rfl, if_pos (by omega)]
      congr 1; omega
    · rw [if_neg (by rw [index_inj _ _ _ _ _ hc (by omega)]; exact h)]
      by_cases h2 : r = yy ∧ x ≤ c ∧ c < x + m
      · rw [if_pos h2, if_pos (by omega)]
      · rw [if_neg h2, if_neg (by omega)]

theorem block_pixel (xSize x y : Nat) (blk : List Nat) (r c : Nat) (hc : c < xSize) (hx : x + 16 ≤ xSize) (im : Image) :
    writeBlock im x y xSize blk (r * xSize + c) =
      if y ≤ r ∧ r < y + 16 ∧ x ≤ c ∧ c < x + 16 then blk.getD ((r - y) * 16 + (c - x)) 0 else im (r * xSize + c) := by
  unfold writeBlock
  have : ∀ m, ((List.range m).foldl (fun im y0 => (List.range 16).foldl (fun im x0 =>
      put im ((y + y0) * xSize + (x + x0)) (blk.getD (y0 * 16 + x0) 0)) im) im) (r * xSize + c) =
      if y ≤ r ∧ r < y + m ∧ x ≤ c ∧ c < x + 16 then blk.getD ((r - y) * 16 + (c - x)) 0 else im (r * xSize + c) := by
    intro m
    induction m with
    | zero => rw [if_neg (by omega)]; rfl
    | succ m ih =>
      rw [List.range_succ (n := m), List.foldl_append, List.foldl_cons, List.foldl_nil,
        row_pixel xSize x (y + m) (fun x0 => blk.getD (m * 16 + x0) 0) r c hc 16 hx, ih]
      by_cases h : r = y + m ∧ x ≤ c ∧ c < x + 16
      · rw [if_pos h, if_pos (by omega)]
        rw [show r - y = m by omega]
      · rw [if_neg h]
        by_cases h2 : y ≤ r ∧ r < y + m ∧ x ≤ c ∧ c < x + 16
        · rw [if_pos h2, if_pos (by omega)]
        · rw [if_neg h2, if_neg (by omega)]
  exact this 16

/-- the corner of the block a pixel is in -/
def cornerOf (r c : Nat) : Nat × Nat := (16 * (c / 16), 16 * (r / 16))

/-- a corner of a block of an image `xSize` pixels wide -/
def IsCorner (xSize : Nat) (q : Nat × Nat) : Prop := q.1 % 16 = 0 ∧ q.2 % 16 = 0 ∧ q.1 + 16 ≤ xSize

theorem corner_pixel (xSize : Nat) (q : Nat × Nat) (hq : IsCorner xSize q) (blk : List Nat) (r c : Nat) (hc : c < xSize) (im : Image) :
    writeBlock im q.1 q.2 xSize blk (r * xSize + c) =
      if q = cornerOf r c then blk.getD (r % 16 * 16 + c % 16) 0 else im (r * xSize + c) := by
  obtain ⟨h1, h2, h3⟩ := hq
  rw [block_pixel xSize q.1 q.2 blk r c hc h3 im]
  by_cases h : q = cornerOf r c
  · rw [if_pos h]
    have e1 : q.1 = 16 * (c / 16) := by rw [h]; rfl
    have e2 : q.2 = 16 * (r / 16) := by rw [h]; rfl
    rw [if_pos (by omega), show r - q.2 = r % 16 by omega, show c - q.1 = c % 16 by omega]
  · rw [if_neg h, if_neg]
    intro hh
    apply h
    rw [cornerOf, Prod.ext_iff]
    constructor <;> simp only <;> omega

theorem paint_other (xSize : Nat) (ps : List ((Nat × Nat) × List Nat)) (hps : ∀ p ∈ ps, IsCorner xSize p.1) (r c : Nat) (hc : c < xSize)
    (h : ∀ p ∈ ps, p.1 ≠ cornerOf r c) (im : Image) : paint xSize im ps (r * xSize + c) = im (r * xSize + c) := by
  induction ps generalizing im with
  | nil => rfl
  | cons p ps ih =>
    rw [paint, List.foldl_cons, ← paint, ih (fun q hq => hps q (by simp [hq])) (fun q hq => h q (by simp [hq])),
      corner_pixel xSize p.1 (hps p (by simp)) p.2 r c hc, if_neg (h p (by simp))]

theorem paint_block (xSize : Nat) (ps : List ((Nat × Nat) × List Nat)) (hps : ∀ p ∈ ps, IsCorner xSize p.1) (r c : Nat) (hc : c < xSize)
    (px : List Nat) (hall : ∀ p ∈ ps, p.1 = cornerOf r c → p.2 = px) (hex : ∃ p ∈ ps, p.1 = cornerOf r c) (im : Image) :
    paint xSize im ps (r * xSize + c) = px.getD (r % 16 * 16 + c % 16) 0 := by
  induction ps generalizing im with
  | nil => simp at hex
  | cons p ps ih =>
    rw [paint, List.foldl_cons, ← paint]
    by_cases hex' : ∃ q ∈ ps, q.1 = cornerOf r c
    · exact ih (fun q hq => hps q (by simp [hq])) (fun q hq => hall q (by simp [hq])) hex' _
    · have hne : ∀ q ∈ ps, q.1 ≠ cornerOf r c := by
        intro q hq hqe
        exact hex' ⟨q, hq, hqe⟩
      have hp : p.1 = cornerOf r c := by
        obtain ⟨q, hq, hqe⟩ := hex
        rcases List.mem_cons.1 hq with rfl | hq
        · exact hqe
        · exact absurd hqe (hne q hq)
      rw [paint_other xSize ps (fun q hq => hps q (by simp [hq])) r c hc hne, corner_pixel xSize p.1 (hps p (by simp)) p.2 r c hc,
        if_pos hp, hall p (by simp) hp]

theorem corners_length (W H : Nat) : (corners (W * 16) (H * 16)).length = W * H := by
  unfold corners
  rw [Nat.mul_div_cancel _ (by omega), Nat.mul_div_cancel _ (by omega), List.length_flatMap]
  simp

theorem flatMap_range_get {α : Type} (W H : Nat) (g : Nat → Nat → α) (i j : Nat) (hi : i < W) (hj : j < H) :
    ((List.range W).flatMap fun i => (List.range H).map fun j => g i j)[i * H + j]? = some (g i j) := by
  induction W with
  | zero => omega
  | succ W ih =>
    have hlen : ((List.range W).flatMap fun i => (List.range H).map fun j => g i j).length = W * H := by
      rw [List.length_flatMap]; simp
    rw [List.range_succ, List.flatMap_append]
    by_cases h : i < W
    · rw [List.getElem?_append_left (by
        rw [hlen]
        calc i * H + j < i * H + H := by omega
          _ = (i + 1) * H := by ring
          _ ≤ W * H := Nat.mul_le_mul_right _ (by omega))]
      exact ih h
    · have : i = W := by omega
      subst this
      rw [List.getElem?_append_right (by rw [hlen]; omega), hlen, Nat.add_sub_cancel_left]
      simp [hj]

theorem corners_get (W H i : Nat) (hi : i < W * H) : (corners (W * 16) (H * 16))[i]? = some (16 * (i / H), 16 * (i % H)) := by
  have hH : 0 < H := by
    rcases Nat.eq_zero_or_pos H with h | h
    · subst h; omega
    · exact h
  unfold corners
  rw [Nat.mul_div_cancel _ (by omega), Nat.mul_div_cancel _ (by omega)]
  have := flatMap_range_get W H (fun i j => (16 * i, 16 * j)) (i / H) (i % H)
    ((Nat.div_lt_iff_lt_mul hH).2 hi) (Nat.mod_lt _ hH)
  rwa [Nat.div_add_mod'] at this

theorem zip_corner (W H : Nat) (blocks : List Block) (hlen : blocks.length = W * H) (p : (Nat × Nat) × Block)
    (hp : p ∈ (corners (W * 16) (H * 16)).zip blocks) :
    ∃ i, i < W * H ∧ p.1 = (16 * (i / H), 16 * (i % H)) ∧ blocks[i]? = some p.2 := by
  obtain ⟨i, hi⟩ := List.mem_iff_getElem?.1 hp
  rw [List.getElem?_zip_eq_some] at hi
  have hi' : i < W * H := by
    by_contra hge
    rw [List.getElem?_eq_none (by rw [corners_length]; omega)] at hi
    simp at hi
  rw [corners_get W H i hi'] at hi
  exact ⟨i, hi', by simpa using hi.1.symm, hi.2⟩

theorem zip_isCorner (W H : Nat) (blocks : List Block) (hlen : blocks.length = W * H) (p : (Nat × Nat) × Block)
    (hp : p ∈ (corners (W * 16) (H * 16)).zip blocks) : IsCorner (W * 16) p.1 := by
  obtain ⟨i, hi, e, _⟩ := zip_corner W H blocks hlen p hp
  have hH : 0 < H := by
    rcases Nat.eq_zero_or_pos H with h | h
    · subst h; omega
    · exact h
  have : i / H < W := (Nat.div_lt_iff_lt_mul hH).2 hi
  rw [e]
  refine ⟨by simp only; omega, by simp only; omega, by simp only; omega⟩

theorem zip_unique (W H : Nat) (blocks : List Block) (hlen : blocks.length = W * H) (r c : Nat) (p : (Nat × Nat) × Block)
    (hp : p ∈ (corners (W * 16) (H * 16)).zip blocks) (hpc : p.1 = cornerOf r c) :
    blocks.getD (c / 16 * H + r / 16) ⟨0, 0, []⟩ = p.2 := by
  obtain ⟨i, hi, e, hb⟩ := zip_corner W H blocks hlen p hp
  rw [hpc, cornerOf, Prod.ext_iff] at e
  simp only at e
  have h1 : i / H = c / 16 := by omega
  have h2 : i % H = r / 16 := by omega
  have : c / 16 * H + r / 16 = i := by rw [← h1, ← h2, Nat.div_add_mod']
  rw [this, List.getD_eq_getElem?_getD, hb]
  rfl

theorem zip_exists (W H : Nat) (blocks : List Block) (hlen : blocks.length = W * H) (r c : Nat) (hr : r < H * 16) (hc : c < W * 16) :
    ∃ b, (cornerOf r c, b) ∈ (corners (W * 16) (H * 16)).zip blocks := by
  have hH : 0 < H := by omega
  have hi : c / 16 * H + r / 16 < W * H := by
    calc c / 16 * H + r / 16 < c / 16 * H + H := by omega
      _ = (c / 16 + 1) * H := by ring
      _ ≤ W * H := Nat.mul_le_mul_right _ (by omega)
  have hcg := corners_get W H _ hi
  rw [show (c / 16 * H + r / 16) / H = c / 16 by
      rw [Nat.add_comm, Nat.add_mul_div_right _ _ hH, Nat.div_eq_of_lt (by omega), Nat.zero_add],
    show (c / 16 * H + r / 16) % H = r / 16 by rw [Nat.add_comm, Nat.add_mul_mod_self_right, Nat.mod_eq_of_lt (by omega)]] at hcg
  refine ⟨blocks[c / 16 * H + r / 16]'(by rw [hlen]; exact hi), ?_⟩
  apply List.mem_of_getElem? (i := c / 16 * H + r / 16)
  rw [List.getElem?_zip_eq_some]
  exact ⟨hcg, List.getElem?_eq_getElem _⟩

/-- what a block shows at its line `i` and column `j`, if `inv` is the inverse transform -/
def blockPixel (inv : List Int → List Nat) (spacing : Nat) (f : Coded) (b : Block) (i j : Nat) : Nat :=
  (inv ((List.range 256).map (b.placed (f.levels b.level) spacing))).getD (i * 16 + j) 0

theorem mem_written (inv : List Int → List Nat) (spacing : Nat) (f : Coded) (pb : List ((Nat × Nat) × Block)) (ls : List Nat)
    (p : (Nat × Nat) × List Nat) (hp : p ∈ written inv spacing f pb ls) :
    ∃ q ∈ pb, p = (q.1, shown inv spacing f q.2) := by
  obtain ⟨lv, _, hp⟩ := List.mem_flatMap.1 hp
  obtain ⟨q, hq, rfl⟩ := List.mem_map.1 hp
  exact ⟨q, (List.mem_filter.1 hq).1, rfl⟩

theorem written_mem (inv : List Int → List Nat) (spacing : Nat) (f : Coded) (pb : List ((Nat × Nat) × Block)) (ls : List Nat)
    (q : (Nat × Nat) × Block) (hq : q ∈ pb) (hl : q.2.level ∈ ls) : (q.1, shown inv spacing f q.2) ∈ written inv spacing f pb ls :=
  List.mem_flatMap.2 ⟨q.2.level, hl, List.mem_map.2 ⟨q, List.mem_filter.2 ⟨hq, by simp⟩, rfl⟩⟩

theorem zip_snd {α β : Type} (a : List α) (b : List β) (h : a.length = b.length) : (a.zip b).map (·.2) = b := by
  rw [← List.unzip_snd, List.unzip_zip h]

/-- everything is written: the image of the fragment -/
theorem written_all (inv : List Int → List Nat) (spacing n W H : Nat) (f : Coded) (hlen : f.blocks.length = W * H)
    (hl : ∀ b ∈ f.blocks, b.level < n) :
    toRows (paint (W * 16) (fun _ => 0) (written inv spacing f ((corners (W * 16) (H * 16)).zip f.blocks) (List.range n))) (W * 16) (H * 16) =
      f.image (blockPixel inv spacing f) W H := by
  unfold toRows Coded.image
  apply List.map_congr_left
  intro r hr
  apply List.map_congr_left
  intro c hc
  rw [List.mem_range] at hr hc
  obtain ⟨b, hb⟩ := zip_exists W H f.blocks hlen r c hr hc
  have hu := zip_unique W H f.blocks hlen r c (cornerOf r c, b) hb rfl
  rw [hu]
  refine paint_block (W * 16) _ ?_ r c hc (shown inv spacing f b) ?_ ?_ _
  · intro p hp
    obtain ⟨q, hq, rfl⟩ := mem_written _ _ _ _ _ _ hp
    exact zip_isCorner W H f.blocks hlen q hq
  · intro p hp hpc
    obtain ⟨q, hq, rfl⟩ := mem_written _ _ _ _ _ _ hp
    have := zip_unique W H f.blocks hlen r c q hq hpc
    rw [hu] at this
    simp only
    rw [← this]
  · refine ⟨(cornerOf r c, shown inv spacing f b), written_mem inv spacing f _ _ (cornerOf r c, b) hb ?_, rfl⟩
    have hz : b ∈ ((corners (W * 16) (H * 16)).zip f.blocks).map (·.2) := List.mem_map.2 ⟨_, hb, rfl⟩
    rw [zip_snd _ _ (by rw [corners_length, hlen])] at hz
    exact List.mem_range.2 (hl b hz)

/-- part of it is written: blocks of the image, or 0 -/
theorem written_part (inv : List Int → List Nat) (spacing n W H : Nat) (f : Coded) (hlen : f.blocks.length = W * H)
    (ps : List ((Nat × Nat) × List Nat)) (hps : ps <+: written inv spacing f ((corners (W * 16) (H * 16)).zip f.blocks) (List.range n))
    (r c : Nat) (hc : c < W * 16) :
    paint (W * 16) (fun _ => 0) ps (r * (W * 16) + c) = 0 ∨
    paint (W * 16) (fun _ => 0) ps (r * (W * 16) + c) =
      blockPixel inv spacing f (f.blocks.getD (c / 16 * H + r / 16) ⟨0, 0, []⟩) (r % 16) (c % 16) := by
  have hcor : ∀ p ∈ ps, IsCorner (W * 16) p.1 := by
    intro p hp
    obtain ⟨q, hq, rfl⟩ := mem_written _ _ _ _ _ _ (hps.subset hp)
    exact zip_isCorner W H f.blocks hlen q hq
  by_cases hex : ∃ p ∈ ps, p.1 = cornerOf r c
  · right
    refine paint_block (W * 16) ps hcor r c hc _ ?_ hex _
    intro p hp hpc
    obtain ⟨q, hq, rfl⟩ := mem_written _ _ _ _ _ _ (hps.subset hp)
    have := zip_unique W H f.blocks hlen r c q hq hpc
    simp only
    rw [← this]
    rfl
  · left
    exact paint_other (W * 16) ps hcor r c hc (fun p hp hpc => hex ⟨p, hp, hpc⟩) _

theorem marks_zip (cs : List (Nat × Nat)) (bs : List Block) : cs.zip (bs.map Block.level) = marks (cs.zip bs) := by
  rw [marks, List.zip_map_right]
  rfl

/-- **C61.** Reading goes round: if the bytes, repeated for ever, begin with the bits of a fragment, then the image of that fragment
is the result, although the bytes may be fewer than the fragment needs. Only if they are, the result can also be an
error, or an incomplete image with a warning, which has 0 where it is not as in the image of the fragment. -/
theorem C61_cyclic (R : Rounding double) (inv : List Int → List Nat) (data : List Nat) (hb : ∀ x ∈ data, x < 256) (spacing : Nat)
    (hsp : spacing < 65536) (n W H : Nat) (hn : n ≤ 8) (f : Coded) (hf : f.Fits n) (hlen : f.blocks.length = W * H)
    (hs : Has (cyclic data) 0 (f.bits n)) :
    decompress R inv data (W * 16) (H * 16) 1 spacing n = .ok (f.image (blockPixel inv spacing f) W H, true) ∨
    (8 * data.length < (f.bits n).length ∧
      (decompress R inv data (W * 16) (H * 16) 1 spacing n = .error .valueError ∨
       ∃ px : Nat → Nat → Nat, decompress R inv data (W * 16) (H * 16) 1 spacing n =
          .ok ((List.range (H * 16)).map fun r => (List.range (W * 16)).map fun c => px r c, false) ∧
         ∀ r c, c < W * 16 → px r c = 0 ∨
           px r c = blockPixel inv spacing f (f.blocks.getD (c / 16 * H + r / 16) ⟨0, 0, []⟩) (r % 16) (c % 16))) := by
  obtain ⟨trees, e, _, hT⟩ := trees_ok
  unfold decompress
  rw [e]
  have hnum : W * 16 * (H * 16) / 256 = (f.blocks.map Block.level).length := by
    rw [List.length_map, hlen, show W * 16 * (H * 16) = W * H * 256 by ring, Nat.mul_div_cancel _ (by omega)]
  have hgb : f.blocks.flatMap (fun b => bitsOfNat 3 b.level) = (f.blocks.map Block.level).flatMap (bitsOfNat 3) := by
    rw [List.flatMap_map]
  unfold Coded.bits at hs ⊢
  rw [hgb, has_append] at hs
  rw [hgb, hnum, List.length_append]
  have hlv : ∀ b ∈ f.blocks, b.level < n := fun b hb => (hf.2 b hb).1
  rcases groups_ok hb (f.blocks.map Block.level) 0 (bitStart data) (by
    intro g hg
    obtain ⟨b, hb, rfl⟩ := List.mem_map.1 hg
    have := hlv b hb
    omega) hs.1 (at_start data) with ⟨b1, e1, h1⟩ | ⟨e1, hlt⟩
  · simp only [e1, Except.bind, Except.map]
    have hany : ((f.blocks.map Block.level).any fun l => decide (n ≤ l)) = false := by
      rw [List.any_eq_false]
      intro l hl
      obtain ⟨b, hb, rfl⟩ := List.mem_map.1 hl
      have := hlv b hb
      simpa using this
    rw [hany]
    simp only [Bool.false_eq_true, if_false, marks_zip]
    rcases levels_ok R inv hb hT spacing hsp (W * 16) n f hf ((corners (W * 16) (H * 16)).zip f.blocks)
      (zip_snd _ _ (by rw [corners_length, hlen])) (List.range n) (fun l hl => List.mem_range.1 hl) (fun _ => 0) _ b1 h1 hs.2 with
      ⟨b2, e2, _⟩ | ⟨ps, hps, e2, hlt⟩
    · left
      rw [e2]
      simp only
      rw [written_all inv spacing n W H f hlen hlv]
    · right
      refine ⟨by omega, .inr ⟨fun r c => paint (W * 16) (fun _ => 0) ps (r * (W * 16) + c), ?_, fun r c hc =>
        written_part inv spacing n W H f hlen ps hps r c hc⟩⟩
      rw [e2]
      rfl
  · simp only [e1, Except.bind, Except.map]
    exact .inr ⟨by omega, .inl trivial⟩

theorem has_bits (data : List Nat) (bits : List Bool) (hle : bits.length ≤ 8 * data.length) (h : Has (bit data) 0 bits) :
    Has (cyclic data) 0 bits := by
  intro i hi
  rw [← h i hi, cyclic, Nat.zero_add, Nat.mod_eq_of_lt (by omega)]

theorem has_pack (bits : List Bool) (post : List Nat) : Has (bit (pack bits ++ post)) 0 bits := by
  have := reads_pack [] post bits
  rw [List.nil_append, reads_iff] at this
  intro i hi
  have := this i hi
  simpa using this

theorem ofBits_lt (bs : List Bool) : ofBits bs < 2 ^ bs.length := by
  induction bs with
  | nil => simp [ofBits]
  | cons b bs ih =>
    rw [ofBits, List.length_cons, Nat.pow_succ]
    cases b <;> simp <;> omega

theorem pack_bytes (bits : List Bool) : ∀ x ∈ pack bits, x < 256 := by
  intro x hx
  unfold pack at hx
  obtain ⟨k, _, rfl⟩ := List.mem_map.1 hx
  refine lt_of_lt_of_le (ofBits_lt _) ?_
  rw [show 256 = 2 ^ 8 by norm_num]
  exact Nat.pow_le_pow_right (by norm_num) (by simp)

/-- **C60 (blocks).** The bytes of a coded fragment, whatever follows them, are decompressed to its image: every block at its place,
with the coefficients its codewords say, none lost or moved. -/
theorem C60_blocks (R : Rounding double) (inv : List Int → List Nat) (spacing : Nat)
    (hsp : spacing < 65536) (n W H : Nat) (hn : n ≤ 8) (f : Coded) (hf : f.Fits n) (hlen : f.blocks.length = W * H)
    (post : List Nat) (hpost : ∀ x ∈ post, x < 256) :
    decompress R inv (pack (f.bits n) ++ post) (W * 16) (H * 16) 1 spacing n = .ok (f.image (blockPixel inv spacing f) W H, true) := by
  have hle : (f.bits n).length ≤ 8 * (pack (f.bits n) ++ post).length := by
    rw [List.length_append, pack_length]
    omega
  rcases C61_cyclic R inv (pack (f.bits n) ++ post) (by
    intro x hx
    rcases List.mem_append.1 hx with hx | hx
    · exact pack_bytes _ x hx
    · exact hpost x hx) spacing hsp n W H hn f hf hlen (has_bits _ _ hle (has_pack _ _)) with h | ⟨h, _⟩
  · exact h
  · omega

/-! ### fragments that end early -/

theorem upTo_prefix (f : Coded) (n i : Nat) (hi : i < f.blocks.length) (hl : ∀ b ∈ f.blocks, b.level < n) : f.upTo i <+: f.bits n := by
  unfold Coded.upTo Coded.bits
  simp only
  have hmem : f.blocks.getD i ⟨0, 0, []⟩ ∈ f.blocks := by
    rw [List.getD_eq_getElem?_getD, List.getElem?_eq_getElem hi]
    exact List.getElem_mem hi
  have hlv := hl _ hmem
  set lv := (f.blocks.getD i ⟨0, 0, []⟩).level with hlvdef
  have hr : List.range n = List.range lv ++ lv :: (List.range (n - lv - 1)).map (fun k => lv + 1 + k) := by
    apply List.ext_getElem
    · simp; omega
    · intro k h1 h2
      simp only [List.length_range] at h1
      rw [List.getElem_range]
      by_cases hk : k < lv
      · rw [List.getElem_append_left (by simpa using hk), List.getElem_range]
      · rw [List.getElem_append_right (by simpa using hk)]
        simp only [List.length_range]
        rcases Nat.eq_or_lt_of_le (Nat.not_lt.1 hk) with h | h
        · have : k - lv = 0 := by omega
          simp only [this, List.getElem_cons_zero]
          omega
        · obtain ⟨d, hd⟩ : ∃ d, k - lv = d + 1 := ⟨k - lv - 1, by omega⟩
          simp only [hd, List.getElem_cons_succ, List.getElem_map, List.getElem_range]
          omega
  have hany : (f.blocks.any fun b => b.level == lv) = true := List.any_eq_true.2 ⟨_, hmem, by simp [hlvdef]⟩
  rw [hr, List.flatMap_append, List.flatMap_cons]
  conv_rhs => rw [Coded.levelBits]
  rw [if_pos hany]
  simp only [List.append_assoc]
  rw [List.prefix_append_right_inj, List.prefix_append_right_inj, List.prefix_append_right_inj]
  refine List.IsPrefix.trans ?_ (List.prefix_append _ _)
  obtain ⟨rest, hrest⟩ := (List.take_prefix (i + 1) f.blocks).filter (fun b => b.level == lv)
  rw [← hrest, List.flatMap_append]
  exact List.prefix_append _ _

theorem level_loop_append (read : BitQueue → Except PyErr (List Nat × BitQueue)) (xSize lv : Nat) (a c : List ((Nat × Nat) × Nat)) :
    ∀ (im im' : Image) (b b' : BitQueue), levelLoop read xSize lv a im b = (im', .ok b') →
    levelLoop read xSize lv (a ++ c) im b = levelLoop read xSize lv c im' b' := by
  induction a with
  | nil =>
    intro im im' b b' h
    simp only [levelLoop, Prod.mk.injEq, Except.ok.injEq] at h
    rw [List.nil_append, h.1, h.2]
  | cons p a ih =>
    intro im im' b b' h
    rw [List.cons_append, levelLoop]
    rw [levelLoop] at h
    by_cases hp : p.2 = lv
    · rw [if_pos hp] at h ⊢
      cases e : read b with
      | error x => rw [e] at h; simp at h
      | ok r => rw [e] at h; exact ih _ _ _ _ h
    · rw [if_neg hp] at h ⊢
      exact ih _ _ _ _ h

theorem level_loop_keeps (read : BitQueue → Except PyErr (List Nat × BitQueue)) (xSize lv : Nat) (a : List ((Nat × Nat) × Nat))
    (r c : Nat) (hc : c < xSize) (ha : ∀ p ∈ a, IsCorner xSize p.1 ∧ (p.2 = lv → p.1 ≠ cornerOf r c)) :
    ∀ (im : Image) (b : BitQueue), (levelLoop read xSize lv a im b).1 (r * xSize + c) = im (r * xSize + c) := by
  induction a with
  | nil => intro im b; rfl
  | cons p a ih =>
    intro im b
    rw [levelLoop]
    by_cases hp : p.2 = lv
    · rw [if_pos hp]
      cases read b with
      | error x => rfl
      | ok q =>
        simp only
        rw [ih (fun x hx => ha x (by simp [hx])), corner_pixel xSize p.1 (ha p (by simp)).1 q.1 r c hc, if_neg ((ha p (by simp)).2 hp)]
    · rw [if_neg hp]
      exact ih (fun x hx => ha x (by simp [hx])) im b

theorem levels_keep (R : Rounding double) (inv : List Int → List Nat) (data : List Nat) (trees : List Tree) (tr : Int) (spacing xSize : Nat)
    (a : List ((Nat × Nat) × Nat)) (r c : Nat) (hc : c < xSize) (ls : List Nat)
    (ha : ∀ p ∈ a, IsCorner xSize p.1 ∧ (p.1 = cornerOf r c → p.2 ∉ ls)) :
    ∀ (im : Image) (b : BitQueue), (levels R inv data trees tr spacing xSize a ls im b).1 (r * xSize + c) = im (r * xSize + c) := by
  induction ls with
  | nil => intro im b; rfl
  | cons lv ls ih =>
    intro im b
    have ih' := ih (fun p hp => ⟨(ha p hp).1, fun h hm => (ha p hp).2 h (by simp [hm])⟩)
    rw [levels]
    split
    · cases readLevel data b with
      | error x => rfl
      | ok h =>
        simp only
        have hk := level_loop_keeps (readBlock R inv data trees tr spacing h.1.1 ((h.1.2.1 : Int) - h.1.1) h.1.2.2) xSize lv a r c hc
          (fun p hp => ⟨(ha p hp).1, fun h1 h2 => (ha p hp).2 h2 (by simp [h1])⟩) im h.2
        revert hk
        cases levelLoop (readBlock R inv data trees tr spacing h.1.1 ((h.1.2.1 : Int) - h.1.1) h.1.2.2) xSize lv a im h.2 with
        | mk im' res =>
          intro hk
          cases res with
          | error x => exact hk
          | ok b' => simp only; rw [ih' im' b']; exact hk
    · exact ih' im b

theorem levels_append (R : Rounding double) (inv : List Int → List Nat) (data : List Nat) (trees : List Tree) (tr : Int) (spacing xSize : Nat)
    (a : List ((Nat × Nat) × Nat)) (ls ms : List Nat) :
    ∀ (im im' : Image) (b b' : BitQueue), levels R inv data trees tr spacing xSize a ls im b = (im', .ok b') →
    levels R inv data trees tr spacing xSize a (ls ++ ms) im b = levels R inv data trees tr spacing xSize a ms im' b' := by
  induction ls with
  | nil =>
    intro im im' b b' h
    simp only [levels, Prod.mk.injEq, Except.ok.injEq] at h
    rw [List.nil_append, h.1, h.2]
  | cons lv ls ih =>
    intro im im' b b' h
    rw [List.cons_append, levels]
    rw [levels] at h
    split
    · rename_i hany
      rw [if_pos hany] at h
      cases e : readLevel data b with
      | error x => rw [e] at h; simp at h
      | ok q =>
        rw [e] at h
        simp only at h ⊢
        cases e2 : levelLoop (readBlock R inv data trees tr spacing q.1.1 ((q.1.2.1 : Int) - q.1.1) q.1.2.2) xSize lv a im q.2 with
        | mk im2 res =>
          rw [e2] at h
          cases res with
          | error x => simp at h
          | ok b2 => exact ih _ _ _ _ h
    · rename_i hany
      rw [if_neg hany] at h
      exact ih _ _ _ _ h

theorem has_prefix (s : Nat → Bool) (k : Nat) (a b : List Bool) (h : a <+: b) (hb : Has s k b) : Has s k a := by
  obtain ⟨c, rfl⟩ := h
  exact ((has_append s k a c).1 hb).1

/-- **C60 (fragments that end early).** Whatever comes after, a block whose bits are all there is shown as it is. -/
theorem C60_early (R : Rounding double) (inv : List Int → List Nat) (data : List Nat) (hb : ∀ x ∈ data, x < 256) (spacing : Nat)
    (hsp : spacing < 65536) (n W H : Nat) (hn : n ≤ 8) (f : Coded) (hf : f.Fits n) (hlen : f.blocks.length = W * H) (i : Nat) (hi : i < W * H)
    (hle : (f.upTo i).length ≤ 8 * data.length) (hs : Has (bit data) 0 (f.upTo i)) :
    ∃ (px : Nat → Nat → Nat) (complete : Bool), decompress R inv data (W * 16) (H * 16) 1 spacing n =
        .ok ((List.range (H * 16)).map fun r => (List.range (W * 16)).map fun c => px r c, complete) ∧
      ∀ r c, r < H * 16 → c < W * 16 → c / 16 * H + r / 16 = i →
        px r c = blockPixel inv spacing f (f.blocks.getD i ⟨0, 0, []⟩) (r % 16) (c % 16) := by
  have hs' := has_bits data _ hle hs
  obtain ⟨trees, e, _, hT⟩ := trees_ok
  unfold decompress
  rw [e]
  have hnum : W * 16 * (H * 16) / 256 = (f.blocks.map Block.level).length := by
    rw [List.length_map, hlen, show W * 16 * (H * 16) = W * H * 256 by ring, Nat.mul_div_cancel _ (by omega)]
  have hgb : f.blocks.flatMap (fun b => bitsOfNat 3 b.level) = (f.blocks.map Block.level).flatMap (bitsOfNat 3) := by
    rw [List.flatMap_map]
  have hlv : ∀ b ∈ f.blocks, b.level < n := fun b hb => (hf.2 b hb).1
  have hi' : i < f.blocks.length := by rw [hlen]; exact hi
  have hmem : f.blocks.getD i ⟨0, 0, []⟩ ∈ f.blocks := by
    rw [List.getD_eq_getElem?_getD, List.getElem?_eq_getElem hi']
    exact List.getElem_mem hi'
  have hlvi := hlv _ hmem
  unfold Coded.upTo at hs' hle
  simp only [hgb] at hs' hle
  set bi := f.blocks.getD i ⟨0, 0, []⟩ with hbi
  set lv := bi.level with hlvdef
  rw [has_append, has_append, has_append] at hs'
  obtain ⟨⟨⟨s1, s2⟩, s3⟩, s4⟩ := hs'
  simp only [List.length_append] at s2 s3 s4 hle
  rw [Nat.zero_add] at s2 s3 s4
  rw [hnum]
  rcases groups_ok hb (f.blocks.map Block.level) 0 (bitStart data) (by
    intro g hg
    obtain ⟨b, hb, rfl⟩ := List.mem_map.1 hg
    have := hlv b hb
    omega) s1 (at_start data) with ⟨b1, e1, h1⟩ | ⟨e1, hlt⟩
  swap
  · omega
  simp only [e1, Except.bind, Except.map]
  have hany : ((f.blocks.map Block.level).any fun l => decide (n ≤ l)) = false := by
    rw [List.any_eq_false]
    intro l hl
    obtain ⟨b, hb, rfl⟩ := List.mem_map.1 hl
    have := hlv b hb
    simpa using this
  rw [hany]
  simp only [Bool.false_eq_true, if_false, marks_zip]
  set pb := (corners (W * 16) (H * 16)).zip f.blocks with hpb
  have hsnd : pb.map (·.2) = f.blocks := zip_snd _ _ (by rw [corners_length, hlen])
  -- it is enough to know the array
  suffices hmain : ∀ r c, r < H * 16 → c < W * 16 → c / 16 * H + r / 16 = i →
      (levels R inv data trees 1 spacing (W * 16) (marks pb) (List.range n) (fun _ => 0) b1).1 (r * (W * 16) + c) =
        blockPixel inv spacing f bi (r % 16) (c % 16) by
    revert hmain
    cases levels R inv data trees 1 spacing (W * 16) (marks pb) (List.range n) (fun _ => 0) b1 with
    | mk im res =>
      intro hmain
      cases res with
      | error x => exact ⟨fun r c => im (r * (W * 16) + c), false, rfl, hmain⟩
      | ok b' => exact ⟨fun r c => im (r * (W * 16) + c), true, rfl, hmain⟩
  intro r c hr hc hrc
  have hcor : ∀ p ∈ pb, IsCorner (W * 16) p.1 := fun p hp => zip_isCorner W H f.blocks hlen p hp
  have huniq : ∀ p ∈ pb, p.1 = cornerOf r c → p.2 = bi := by
    intro p hp hpc
    have := zip_unique W H f.blocks hlen r c p hp hpc
    rw [hrc] at this
    exact this.symm
  obtain ⟨rest, hrange⟩ : ∃ rest : List Nat, List.range n = List.range lv ++ lv :: rest ∧ lv ∉ rest := by
    refine ⟨(List.range n).drop (lv + 1), ?_, ?_⟩
    · have := List.take_append_drop lv (List.range n)
      rw [List.take_range, Nat.min_eq_left (by omega), List.drop_eq_getElem_cons (by simpa using hlvi), List.getElem_range] at this
      exact this.symm
    · intro hm
      obtain ⟨k, hk, he⟩ := List.mem_iff_getElem.1 hm
      simp at he
      omega
  rw [hrange.1]
  -- the levels before
  rcases levels_ok R inv hb hT spacing hsp (W * 16) n f hf pb hsnd (List.range lv) (fun l hl => by have := List.mem_range.1 hl; omega)
    (fun _ => 0) _ b1 h1 (by rw [Nat.zero_add]; exact s2) with ⟨b2, e2, h2⟩ | ⟨ps, hps, e2, hlt⟩
  swap
  · omega
  rw [levels_append R inv data trees 1 spacing (W * 16) (marks pb) _ _ _ _ _ _ e2]
  generalize paint (W * 16) (fun _ => 0) (written inv spacing f pb (List.range lv)) = im2
  rw [levels, if_pos (by
    rw [any_marks, Bool.not_eq_true', List.isEmpty_eq_false_iff]
    intro h0
    have hz : bi ∈ pb.map (·.2) := by rw [hsnd]; exact hmem
    obtain ⟨p, hp, hpe⟩ := List.mem_map.1 hz
    have : p ∈ onLevel pb lv := List.mem_filter.2 ⟨hp, by simp [hpe, hlvdef]⟩
    rw [h0] at this
    simp at this)]
  rcases level_head_ok hb (f.levels lv) (hf.1 lv hlvi) _ b2 h2 (by rw [Nat.zero_add]; exact s3) with ⟨b3, e3, h3⟩ | ⟨e3, hlt⟩
  swap
  · omega
  rw [e3]
  simp only
  -- the blocks of this level up to this one
  have hsplit : pb = pb.take (i + 1) ++ pb.drop (i + 1) := (List.take_append_drop _ _).symm
  have htake : (pb.take (i + 1)).map (·.2) = f.blocks.take (i + 1) := by rw [← hsnd, List.map_take]
  have hbits : ((onLevel (pb.take (i + 1)) lv).flatMap fun p => p.2.bits (f.levels lv)) =
      ((f.blocks.take (i + 1)).filter fun b => b.level == lv).flatMap (Block.bits (f.levels lv)) := by
    rw [← htake, ← onLevel_blocks, List.flatMap_map]
  rcases level_loop_ok (data := data)
    (readBlock R inv data trees 1 spacing (f.levels lv).minDc (((f.levels lv).maxDc : Int) - (f.levels lv).minDc) (f.levels lv).vars)
    (Block.bits (f.levels lv)) (shown inv spacing f) (W * 16) lv (pb.take (i + 1)) (by
      intro p hp k b hat hhas
      have hl : p.2.level = lv := by simpa [onLevel] using (List.mem_filter.1 hp).2
      have hm : p.2 ∈ f.blocks := by
        rw [← hsnd]
        exact List.mem_map.2 ⟨p, List.mem_of_mem_take (List.mem_filter.1 hp).1, rfl⟩
      obtain ⟨g1, g2, g3, g4⟩ := hf.2 p.2 hm
      rw [hl] at g4
      have := block_ok R inv hb hT spacing hsp (f.levels lv) (hf.1 lv hlvi) p.2 g2 g3 g4 k b hat hhas
      rw [shown, hl]
      exact this) im2 _ b3 h3 (by rw [hbits, Nat.zero_add]; exact s4) with ⟨b4, e4, h4⟩ | ⟨ps, hps, e4, hlt⟩
  swap
  · rw [hbits] at hlt
    omega
  have hmarks : marks pb = marks (pb.take (i + 1)) ++ marks (pb.drop (i + 1)) := by
    rw [marks, marks, marks, ← List.map_append, List.take_append_drop]
  have e5 := level_loop_append _ (W * 16) lv (marks (pb.take (i + 1))) (marks (pb.drop (i + 1))) _ _ _ _ e4
  rw [← hmarks] at e5
  rw [e5]
  -- what comes after leaves the block alone
  have hkeep := level_loop_keeps
    (readBlock R inv data trees 1 spacing (f.levels lv).minDc (((f.levels lv).maxDc : Int) - (f.levels lv).minDc) (f.levels lv).vars)
    (W * 16) lv (marks (pb.drop (i + 1))) r c hc (by
      intro p hp
      obtain ⟨q, hq, rfl⟩ := List.mem_map.1 hp
      refine ⟨hcor q (List.mem_of_mem_drop hq), fun _ hqc => ?_⟩
      simp only at hqc
      obtain ⟨j, hj⟩ := List.mem_iff_getElem?.1 hq
      rw [List.getElem?_drop, hpb, List.getElem?_zip_eq_some] at hj
      have hjlt : i + 1 + j < W * H := by
        by_contra hge
        rw [List.getElem?_eq_none (by rw [corners_length]; omega)] at hj
        simp at hj
      have hH : 0 < H := by omega
      have hco := hj.1
      rw [corners_get W H _ hjlt, Option.some.injEq, hqc, cornerOf, Prod.ext_iff] at hco
      simp only at hco
      have a1 : (i + 1 + j) / H = c / 16 := by omega
      have a2 : (i + 1 + j) % H = r / 16 := by omega
      have a3 := Nat.div_add_mod' (i + 1 + j) H
      rw [a1, a2] at a3
      omega) (paint (W * 16) im2 ((onLevel (pb.take (i + 1)) lv).map fun p => (p.1, shown inv spacing f p.2))) b4
  have hval : paint (W * 16) im2 ((onLevel (pb.take (i + 1)) lv).map fun p => (p.1, shown inv spacing f p.2)) (r * (W * 16) + c) =
      blockPixel inv spacing f bi (r % 16) (c % 16) := by
    refine paint_block (W * 16) _ ?_ r c hc (shown inv spacing f bi) ?_ ?_ _
    · intro p hp
      obtain ⟨q, hq, rfl⟩ := List.mem_map.1 hp
      exact hcor q (List.mem_of_mem_take (List.mem_filter.1 hq).1)
    · intro p hp hpc
      obtain ⟨q, hq, rfl⟩ := List.mem_map.1 hp
      simp only at hpc ⊢
      rw [huniq q (List.mem_of_mem_take (List.mem_filter.1 hq).1) hpc]
    · have hgi : pb[i]? = some (cornerOf r c, bi) := by
        rw [hpb, List.getElem?_zip_eq_some]
        have hH : 0 < H := by omega
        refine ⟨?_, ?_⟩
        · rw [corners_get W H i hi, cornerOf, ← hrc]
          rw [show (c / 16 * H + r / 16) / H = c / 16 by
              rw [Nat.add_comm, Nat.add_mul_div_right _ _ hH, Nat.div_eq_of_lt (by omega), Nat.zero_add],
            show (c / 16 * H + r / 16) % H = r / 16 by rw [Nat.add_comm, Nat.add_mul_mod_self_right, Nat.mod_eq_of_lt (by omega)]]
        · rw [hbi, List.getD_eq_getElem?_getD, List.getElem?_eq_getElem hi']
          rfl
      refine ⟨(cornerOf r c, shown inv spacing f bi), List.mem_map.2 ⟨(cornerOf r c, bi), List.mem_filter.2 ⟨?_, ?_⟩, rfl⟩, rfl⟩
      · exact List.mem_of_getElem? (i := i) (by rw [List.getElem?_take, if_pos (by omega)]; exact hgi)
      · simp [hlvdef]
  rw [hval] at hkeep
  revert hkeep
  cases levelLoop (readBlock R inv data trees 1 spacing (f.levels lv).minDc (((f.levels lv).maxDc : Int) - (f.levels lv).minDc) (f.levels lv).vars)
    (W * 16) lv (marks (pb.drop (i + 1))) (paint (W * 16) im2 ((onLevel (pb.take (i + 1)) lv).map fun p => (p.1, shown inv spacing f p.2))) b4 with
  | mk im5 res =>
    intro hkeep
    cases res with
    | error x => exact hkeep
    | ok b5 =>
      simp only
      rw [levels_keep R inv data trees 1 spacing (W * 16) (marks pb) r c hc rest (by
        intro p hp
        obtain ⟨q, hq, rfl⟩ := List.mem_map.1 hp
        refine ⟨hcor q hq, fun hqc hm => ?_⟩
        rw [show (q.1, q.2.level).2 = q.2.level from rfl, huniq q hq hqc] at hm
        exact hrange.2 hm) im5 b5]
      exact hkeep

/-- **C60 (fragments that end early).** Of the first `m` bytes of a fragment the blocks that are complete in them are shown as they are. -/
theorem C60_truncated (R : Rounding double) (inv : List Int → List Nat) (spacing : Nat)
    (hsp : spacing < 65536) (n W H : Nat) (hn : n ≤ 8) (f : Coded) (hf : f.Fits n) (hlen : f.blocks.length = W * H) (m : Nat) :
    ∀ i, i < W * H → (f.upTo i).length ≤ 8 * m →
    ∃ (px : Nat → Nat → Nat) (complete : Bool), decompress R inv ((pack (f.bits n)).take m) (W * 16) (H * 16) 1 spacing n =
        .ok ((List.range (H * 16)).map fun r => (List.range (W * 16)).map fun c => px r c, complete) ∧
      ∀ r c, r < H * 16 → c < W * 16 → c / 16 * H + r / 16 = i →
        px r c = blockPixel inv spacing f (f.blocks.getD i ⟨0, 0, []⟩) (r % 16) (c % 16) := by
  intro i hi hle
  have hpre := upTo_prefix f n i (by rw [hlen]; exact hi) (fun b hb => (hf.2 b hb).1)
  have hlen' : (f.upTo i).length ≤ 8 * ((pack (f.bits n)).take m).length := by
    have := hpre.length_le
    rw [List.length_take, pack_length]
    omega
  refine C60_early R inv _ (fun x hx => pack_bytes _ x (List.mem_of_mem_take hx)) spacing hsp n W H hn f hf hlen i hi hlen' ?_
  intro j hj
  have h1 := has_prefix _ _ _ _ hpre (has_pack (f.bits n) []) j hj
  rw [List.append_nil, Nat.zero_add] at h1
  rw [← h1, Nat.zero_add]
  unfold bit
  have : j / 8 < ((pack (f.bits n)).take m).length := by omega
  rw [List.getD_eq_getElem?_getD, List.getD_eq_getElem?_getD, List.getElem?_take, if_pos (by rw [List.length_take] at this; omega)]

theorem fill_error (data : List Nat) (n fuel : Nat) : ∀ (b : BitQueue) (e : PyErr), fill data n fuel b = .error e → e = .valueError := by
  induction fuel with
  | zero => intro b e h; simp [fill] at h
  | succ fuel ih =>
    intro b e h
    rw [fill] at h
    split at h
    · split at h
      · split at h
        · simp at h
        · simpa using h.symm
      · exact ih _ _ h
    · simp at h

theorem read_error (data : List Nat) (n : Nat) (b : BitQueue) (e : PyErr) (h : readBits data n b = .error e) : e = .valueError := by
  unfold readBits at h
  split at h
  · simpa using h.symm
  · split at h
    · cases hf : fill data n 3 b with
      | error x => rw [hf] at h; simp only [Except.map, Except.error.injEq] at h; rw [← h]; exact fill_error _ _ _ _ _ hf
      | ok q => rw [hf] at h; simp [Except.map] at h
    · simp [Except.map] at h

theorem groups_error (data : List Nat) (n : Nat) : ∀ (b : BitQueue) (e : PyErr), readGroups data n b = .error e → e = .valueError := by
  induction n with
  | zero => intro b e h; simp [readGroups] at h
  | succ n ih =>
    intro b e h
    rw [readGroups] at h
    cases hr : readBits data 3 b with
    | error x => rw [hr] at h; simp only [Except.bind, Except.error.injEq] at h; rw [← h]; exact read_error _ _ _ _ hr
    | ok q =>
      rw [hr] at h
      simp only [Except.bind] at h
      cases hg : readGroups data n q.2 with
      | error x => rw [hg] at h; simp only [Except.map, Except.error.injEq] at h; rw [← h]; exact ih _ _ hg
      | ok s => rw [hg] at h; simp [Except.map] at h

theorem put_lt {im : Image} {i v m : Nat} (him : ∀ j, im j < m) (hv : v < m) : ∀ j, put im i v j < m := by
  intro j
  unfold put
  split
  · exact hv
  · exact him j

theorem write_lt {m : Nat} (hm : 0 < m) (x y xSize : Nat) (blk : List Nat) (hblk : ∀ v ∈ blk, v < m) (im : Image) (him : ∀ j, im j < m) :
    ∀ j, writeBlock im x y xSize blk j < m := by
  have hget : ∀ i, blk.getD i 0 < m := by
    intro i
    by_cases h : i < blk.length
    · rw [List.getD_eq_getElem?_getD, List.getElem?_eq_getElem h]
      exact hblk _ (List.getElem_mem h)
    · rw [List.getD_eq_getElem?_getD, List.getElem?_eq_none (by omega)]
      exact hm
  have inner : ∀ (l : List Nat) (y0 : Nat) (im : Image), (∀ j, im j < m) →
      ∀ j, (l.foldl (fun im x0 => put im ((y + y0) * xSize + (x + x0)) (blk.getD (y0 * 16 + x0) 0)) im) j < m := by
    intro l y0
    induction l with
    | nil => intro im h; exact h
    | cons a l ih => intro im h; exact ih _ (put_lt h (hget _))
  have outer : ∀ (l : List Nat) (im : Image), (∀ j, im j < m) →
      ∀ j, (l.foldl (fun im y0 => (List.range 16).foldl (fun im x0 => put im ((y + y0) * xSize + (x + x0)) (blk.getD (y0 * 16 + x0) 0)) im) im) j < m := by
    intro l
    induction l with
    | nil => intro im h; exact h
    | cons a l ih => intro im h; exact ih _ (inner _ _ _ h)
  exact outer _ im him

theorem level_loop_lt {m : Nat} (hm : 0 < m) (read : BitQueue → Except PyErr (List Nat × BitQueue)) (xSize lv : Nat)
    (hr : ∀ b r, read b = .ok r → ∀ v ∈ r.1, v < m) (a : List ((Nat × Nat) × Nat)) :
    ∀ (im : Image) (b : BitQueue), (∀ j, im j < m) → ∀ j, (levelLoop read xSize lv a im b).1 j < m := by
  induction a with
  | nil => intro im b h; exact h
  | cons p a ih =>
    intro im b h
    rw [levelLoop]
    split
    · cases e : read b with
      | error x => exact h
      | ok r => exact ih _ _ (write_lt hm _ _ _ _ (hr b r e) im h)
    · exact ih _ _ h

theorem levels_lt {m : Nat} (hm : 0 < m) (R : Rounding double) (inv : List Int → List Nat) (hinv : ∀ l, ∀ v ∈ inv l, v < m) (data : List Nat)
    (trees : List Tree) (tr : Int) (spacing xSize : Nat) (a : List ((Nat × Nat) × Nat)) (ls : List Nat) :
    ∀ (im : Image) (b : BitQueue), (∀ j, im j < m) → ∀ j, (levels R inv data trees tr spacing xSize a ls im b).1 j < m := by
  induction ls with
  | nil => intro im b h; exact h
  | cons lv ls ih =>
    intro im b h
    rw [levels]
    split
    · cases readLevel data b with
      | error x => exact h
      | ok q =>
        simp only
        have hk := level_loop_lt hm (readBlock R inv data trees tr spacing q.1.1 ((q.1.2.1 : Int) - q.1.1) q.1.2.2) xSize lv (by
          intro b r hr v hv
          unfold readBlock at hr
          cases h1 : readBits data 8 b with
          | error x => rw [h1] at hr; simp [Except.bind] at hr
          | ok r1 =>
            rw [h1] at hr
            simp only [Except.bind] at hr
            cases h2 : readBits data 8 r1.2 with
            | error x => rw [h2] at hr; simp at hr
            | ok r2 =>
              rw [h2] at hr
              simp only at hr
              cases h3 : readCoefs data trees spacing (q.1.2.2.take (255 - r2.1)) r2.2 with
              | error x => rw [h3] at hr; simp at hr
              | ok r3 =>
                rw [h3] at hr
                simp only at hr
                split at hr
                · simp only [Except.ok.injEq] at hr
                  rw [← hr] at hv
                  exact hinv _ v hv
                · simp at hr) a im q.2 h
        revert hk
        cases levelLoop (readBlock R inv data trees tr spacing q.1.1 ((q.1.2.1 : Int) - q.1.1) q.1.2.2) xSize lv a im q.2 with
        | mk im' res =>
          intro hk
          cases res with
          | error x => exact hk
          | ok b' => exact ih _ _ hk
    · exact ih _ _ h

theorem rows_exist (im : Image) (w h m : Nat) (him : ∀ j, im j < m) :
    (toRows im w h).length = h ∧ (∀ row ∈ toRows im w h, row.length = w ∧ ∀ v ∈ row, v < m) := by
  unfold toRows
  refine ⟨by simp, ?_⟩
  intro row hrow
  obtain ⟨r, _, rfl⟩ := List.mem_map.1 hrow
  refine ⟨by simp, ?_⟩
  intro v hv
  obtain ⟨c, _, rfl⟩ := List.mem_map.1 hv
  exact him _

/-- **C60 (any bytes).** Whatever the bytes are, there is an image of the right size, with pixels from 0 to 255, or a ValueError (only
when the levels of the blocks cannot be read). -/
theorem C60_total (R : Rounding double) (inv : List Int → List Nat) (hinv : ∀ l, ∀ v ∈ inv l, v < 256) (data : List Nat) (W H : Nat)
    (tr : Int) (spacing n : Nat) :
    (decompress R inv data (W * 16) (H * 16) tr spacing n = .error .valueError ∧ ∃ e, readGroups data (W * H) (bitStart data) = .error e) ∨
    ∃ rows complete, decompress R inv data (W * 16) (H * 16) tr spacing n = .ok (rows, complete) ∧
      rows.length = H * 16 ∧ ∀ row ∈ rows, row.length = W * 16 ∧ ∀ v ∈ row, v < 256 := by
  obtain ⟨trees, e, _, _⟩ := trees_ok
  unfold decompress
  rw [e, show W * 16 * (H * 16) = W * H * 256 by ring, Nat.mul_div_cancel _ (by omega)]
  simp only [Except.bind]
  cases hg : readGroups data (W * H) (bitStart data) with
  | error x =>
    left
    rw [groups_error _ _ _ _ hg]
    exact ⟨rfl, _, rfl⟩
  | ok g =>
    right
    simp only [Except.map]
    split
    · refine ⟨_, _, rfl, rows_exist _ _ _ 256 (fun _ => by omega)⟩
    · have hk := levels_lt (m := 256) (by omega) R inv hinv data trees tr spacing (W * 16) ((corners (W * 16) (H * 16)).zip g.1) (List.range n)
        (fun _ => 0) g.2 (fun _ => by omega)
      revert hk
      cases levels R inv data trees tr spacing (W * 16) ((corners (W * 16) (H * 16)).zip g.1) (List.range n) (fun _ => 0) g.2 with
      | mk im res =>
        intro hk
        cases res with
        | error x => exact ⟨_, _, rfl, rows_exist _ _ _ _ hk⟩
        | ok b' => exact ⟨_, _, rfl, rows_exist _ _ _ _ hk⟩

/-- **C60 (levels that are not there).** If a block is on a level the header does not announce, there is a warning and the image is 0
throughout. -/
theorem C60_no_level (R : Rounding double) (inv : List Int → List Nat) (gs : List Nat) (W H : Nat) (hlen : gs.length = W * H)
    (hg : ∀ g ∈ gs, g < 8) (n : Nat) (hn : ∃ g ∈ gs, n ≤ g) (post : List Nat) (hpost : ∀ x ∈ post, x < 256) (tr : Int) (spacing : Nat) :
    decompress R inv (pack (gs.flatMap (bitsOfNat 3)) ++ post) (W * 16) (H * 16) tr spacing n =
      .ok (List.replicate (H * 16) (List.replicate (W * 16) 0), false) := by
  have hzero : toRows (fun _ => 0) (W * 16) (H * 16) = List.replicate (H * 16) (List.replicate (W * 16) 0) := by
    simp [toRows, List.map_const']
  obtain ⟨trees, e, _, _⟩ := trees_ok
  unfold decompress
  rw [e, show W * 16 * (H * 16) = W * H * 256 by ring, Nat.mul_div_cancel _ (by omega), ← hlen]
  have hle : (gs.flatMap (bitsOfNat 3)).length ≤ 8 * (pack (gs.flatMap (bitsOfNat 3)) ++ post).length := by
    rw [List.length_append, pack_length]
    omega
  rcases groups_ok (data := pack (gs.flatMap (bitsOfNat 3)) ++ post) (by
    intro x hx
    rcases List.mem_append.1 hx with hx | hx
    · exact pack_bytes _ x hx
    · exact hpost x hx) gs 0 (bitStart _) hg (has_bits _ _ hle (has_pack _ _)) (at_start _) with ⟨b1, e1, h1⟩ | ⟨e1, hlt⟩
  · simp only [e1, Except.bind, Except.map]
    rw [if_pos (by
      obtain ⟨g, h1, h2⟩ := hn
      exact List.any_eq_true.2 ⟨g, h1, by simpa using h2⟩), hzero]
  · omega

/-- no block is written by another transform -/
theorem read_other (R : Rounding double) (inv : List Int → List Nat) (data : List Nat) (trees : List Tree) (tr : Int) (htr : tr ≠ 1)
    (spacing lo : Nat) (range : Int) (vars : List Nat) (b : BitQueue) (r : List Nat × BitQueue) :
    readBlock R inv data trees tr spacing lo range vars b ≠ .ok r := by
  intro hr
  unfold readBlock at hr
  cases h1 : readBits data 8 b with
  | error x => rw [h1] at hr; simp [Except.bind] at hr
  | ok r1 =>
    rw [h1] at hr
    simp only [Except.bind] at hr
    cases h2 : readBits data 8 r1.2 with
    | error x => rw [h2] at hr; simp at hr
    | ok r2 =>
      rw [h2] at hr
      simp only at hr
      cases h3 : readCoefs data trees spacing (vars.take (255 - r2.1)) r2.2 with
      | error x => rw [h3] at hr; simp at hr
      | ok r3 => rw [h3] at hr; simp [htr] at hr

theorem loop_other (read : BitQueue → Except PyErr (List Nat × BitQueue)) (hr : ∀ b r, read b ≠ .ok r) (xSize lv : Nat) (a : List ((Nat × Nat) × Nat)) :
    ∀ (im : Image) (b : BitQueue), (levelLoop read xSize lv a im b).1 = im ∧
      ((∃ p ∈ a, p.2 = lv) → ∃ e, (levelLoop read xSize lv a im b).2 = .error e) := by
  induction a with
  | nil => intro im b; exact ⟨rfl, fun h => by simp at h⟩
  | cons p a ih =>
    intro im b
    rw [levelLoop]
    by_cases hp : p.2 = lv
    · rw [if_pos hp]
      cases e : read b with
      | error x => exact ⟨rfl, fun _ => ⟨x, rfl⟩⟩
      | ok r => exact absurd e (hr b r)
    · rw [if_neg hp]
      refine ⟨(ih im b).1, fun h => (ih im b).2 ?_⟩
      obtain ⟨q, hq, hq2⟩ := h
      rcases List.mem_cons.1 hq with rfl | hq
      · exact absurd hq2 hp
      · exact ⟨q, hq, hq2⟩

/-- **C60 (other transforms).** Only the cosine transform is known: with another number in the header the image is 0 throughout, with a
warning (or there is a ValueError), if there are blocks at all. -/
theorem C60_other_transform (R : Rounding double) (inv : List Int → List Nat) (data : List Nat) (W H : Nat) (hWH : 0 < W * H)
    (tr : Int) (htr : tr ≠ 1) (spacing n : Nat) :
    decompress R inv data (W * 16) (H * 16) tr spacing n = .error .valueError ∨
    decompress R inv data (W * 16) (H * 16) tr spacing n = .ok (List.replicate (H * 16) (List.replicate (W * 16) 0), false) := by
  obtain ⟨trees, e, _, _⟩ := trees_ok
  unfold decompress
  rw [e, show W * 16 * (H * 16) = W * H * 256 by ring, Nat.mul_div_cancel _ (by omega)]
  simp only [Except.bind]
  have hzero : toRows (fun _ => 0) (W * 16) (H * 16) = List.replicate (H * 16) (List.replicate (W * 16) 0) := by
    simp [toRows, List.map_const']
  cases hg : readGroups data (W * H) (bitStart data) with
  | error x =>
    left
    rw [groups_error _ _ _ _ hg]
    rfl
  | ok g =>
    right
    simp only [Except.map]
    split
    · rw [hzero]
    · rename_i hany
      have hlev : ∀ (ls : List Nat) (b : BitQueue),
          (levels R inv data trees tr spacing (W * 16) ((corners (W * 16) (H * 16)).zip g.1) ls (fun _ => 0) b).1 = (fun _ => 0) ∧
          ((∃ p ∈ (corners (W * 16) (H * 16)).zip g.1, p.2 ∈ ls) →
            ∃ e, (levels R inv data trees tr spacing (W * 16) ((corners (W * 16) (H * 16)).zip g.1) ls (fun _ => 0) b).2 = .error e) := by
        intro ls
        induction ls with
        | nil => intro b; exact ⟨rfl, fun h => by simp at h⟩
        | cons lv ls ih =>
          intro b
          rw [levels]
          split
          · rename_i ha
            cases readLevel data b with
            | error x => exact ⟨rfl, fun _ => ⟨x, rfl⟩⟩
            | ok q =>
              simp only
              have hk := loop_other (readBlock R inv data trees tr spacing q.1.1 ((q.1.2.1 : Int) - q.1.1) q.1.2.2)
                (fun b r => read_other R inv data trees tr htr spacing _ _ _ b r) (W * 16) lv ((corners (W * 16) (H * 16)).zip g.1) (fun _ => 0) q.2
              have hex : ∃ p ∈ (corners (W * 16) (H * 16)).zip g.1, p.2 = lv := by
                obtain ⟨p, h1, h2⟩ := List.any_eq_true.1 ha
                exact ⟨p, h1, by simpa using h2⟩
              revert hk
              cases levelLoop (readBlock R inv data trees tr spacing q.1.1 ((q.1.2.1 : Int) - q.1.1) q.1.2.2) (W * 16) lv
                ((corners (W * 16) (H * 16)).zip g.1) (fun _ => 0) q.2 with
              | mk im' res =>
                intro hk
                obtain ⟨x, hx⟩ := hk.2 hex
                simp only at hx
                subst hx
                exact ⟨hk.1, fun _ => ⟨x, rfl⟩⟩
          · rename_i ha
            refine ⟨(ih b).1, fun h => (ih b).2 ?_⟩
            obtain ⟨p, h1, h2⟩ := h
            rcases List.mem_cons.1 h2 with h2 | h2
            · exact absurd (List.any_eq_true.2 ⟨p, h1, by simpa using h2⟩) ha
            · exact ⟨p, h1, h2⟩
      obtain ⟨h1, h2⟩ := hlev (List.range n) g.2
      have hglen : g.1.length = W * H := by
        have : ∀ (k : Nat) (b : BitQueue) (g : List Nat × BitQueue), readGroups data k b = .ok g → g.1.length = k := by
          intro k
          induction k with
          | zero => intro b g h; simp only [readGroups, Except.ok.injEq] at h; rw [← h]; rfl
          | succ k ih =>
            intro b g h
            rw [readGroups] at h
            cases hr : readBits data 3 b with
            | error x => rw [hr] at h; simp [Except.bind] at h
            | ok q =>
              rw [hr] at h
              simp only [Except.bind] at h
              cases hg : readGroups data k q.2 with
              | error x => rw [hg] at h; simp [Except.map] at h
              | ok s =>
                rw [hg] at h
                simp only [Except.map, Except.ok.injEq] at h
                rw [← h]
                simp [ih _ _ hg]
        exact this _ _ _ hg
      obtain ⟨x, hx⟩ := h2 (by
        have hz : 0 < ((corners (W * 16) (H * 16)).zip g.1).length := by rw [List.length_zip, corners_length, hglen]; omega
        refine ⟨_, List.getElem_mem hz, ?_⟩
        rw [List.getElem_zip]
        simp only
        have hm : g.1[0]'(by omega) ∈ g.1 := List.getElem_mem _
        have : ¬ n ≤ g.1[0]'(by omega) := by
          intro hle
          exact hany (List.any_eq_true.2 ⟨_, hm, by simpa using hle⟩)
        exact List.mem_range.2 (by omega))
      revert h1 hx
      cases levels R inv data trees tr spacing (W * 16) ((corners (W * 16) (H * 16)).zip g.1) (List.range n) (fun _ => 0) g.2 with
      | mk im res =>
        intro h1 hx
        simp only at h1 hx
        subst hx
        rw [h1]
        simp only
        rw [hzero]

/-! ### examples -/

/-- one block of mean 100 with three coefficients, the last of them outside the range of its code -/
def exampleCoded : Coded := ⟨fun _ => ⟨100, 2000, List.replicate 255 0⟩, [⟨0, 100, [.small 5, .small (-11), .negative 3]⟩]⟩

example : exampleCoded.Fits 1 ∧ exampleCoded.blocks.length = 1 * 1 ∧ 100 < (pack (exampleCoded.bits 1)).length := by
  refine ⟨⟨?_, ?_⟩, rfl, by decide +kernel⟩
  · intro k _
    show Level.Fits ⟨100, 2000, List.replicate 255 0⟩
    exact ⟨by decide, by decide, List.length_replicate, fun v hv => by rw [List.eq_of_mem_replicate hv]; decide⟩
  · intro b hb
    simp only [exampleCoded, List.mem_singleton] at hb
    subst hb
    refine ⟨by decide, by decide, by decide, ?_⟩
    show (Coef.small 5).Fits 25 ∧ (Coef.small (-11)).Fits 25 ∧ (Coef.negative 3).Fits 25 ∧ True
    exact ⟨⟨by decide, by decide⟩, ⟨by decide, by decide⟩, (by decide : 3 < 32768), trivial⟩

/-- one block on level 7, without coefficients -/
def exampleFlat : Coded := ⟨fun _ => ⟨31, 0, List.replicate 255 0⟩, [⟨7, 0, []⟩]⟩

theorem flat_fits : exampleFlat.Fits 8 := by
  refine ⟨?_, ?_⟩
  · intro k _
    show Level.Fits ⟨31, 0, List.replicate 255 0⟩
    exact ⟨by decide, by decide, List.length_replicate, fun v hv => by rw [List.eq_of_mem_replicate hv]; decide⟩
  · intro b hb
    simp only [exampleFlat, List.mem_singleton] at hb
    subst hb
    exact ⟨by decide, by decide, by decide, trivial⟩

-- C60_blocks: 102 bytes are the whole image
example (R : Rounding double) (inv : List Int → List Nat) (spacing : Nat) (hsp : spacing < 65536) :
    decompress R inv (255 :: List.replicate 100 0 ++ [255]) 16 16 1 spacing 8 =
      .ok (exampleFlat.image (blockPixel inv spacing exampleFlat) 1 1, true) := by
  have := C60_blocks R inv spacing hsp 8 1 1 (by decide) exampleFlat flat_fits rfl [] (by simp)
  rwa [show pack (exampleFlat.bits 8) ++ [] = 255 :: List.replicate 100 0 ++ [255] by decide +kernel] at this

-- C61_cyclic: 101 bytes, so that the number of coefficients is read from the first byte again; the image is complete
example (R : Rounding double) (inv : List Int → List Nat) (spacing : Nat) (hsp : spacing < 65536) :
    8 * (255 :: List.replicate 100 0).length < (exampleFlat.bits 8).length ∧
    decompress R inv (255 :: List.replicate 100 0) 16 16 1 spacing 8 =
      .ok (exampleFlat.image (blockPixel inv spacing exampleFlat) 1 1, true) := by
  refine ⟨by decide +kernel, ?_⟩
  have hc := C61_cyclic R inv (255 :: List.replicate 100 0) (by decide) spacing hsp 8 1 1 (by decide) exampleFlat flat_fits rfl
    (by
      have : ∀ i < 816, cyclic (255 :: List.replicate 100 0) (0 + i) = (exampleFlat.bits 8).getD i false := by decide +kernel
      intro i hi
      exact this i (by rwa [show (exampleFlat.bits 8).length = 816 by decide +kernel] at hi))
  rcases hc with h | ⟨_, h⟩
  · exact h
  · exfalso
    obtain ⟨trees, e, _, _⟩ := trees_ok
    have get : ∀ {α : Type} (x : Except PyErr α) (y : α), x.toOption = some y → x = .ok y := by
      intro α x y h
      cases x with
      | error _ => simp [Except.toOption] at h
      | ok z => simp [Except.toOption] at h; rw [h]
    have hg := get (readGroups (255 :: List.replicate 100 0) 1 (bitStart (255 :: List.replicate 100 0))) ([7], ⟨31, 21, 3⟩) (by decide +kernel)
    have hl := get (readLevel (255 :: List.replicate 100 0) ⟨31, 21, 3⟩) ((31, 0, List.replicate 255 0), ⟨0, 8, 0⟩) (by decide +kernel)
    have h1 := get (readBits (255 :: List.replicate 100 0) 8 ⟨0, 8, 0⟩) (0, ⟨0, 0, 0⟩) (by decide +kernel)
    have h2 := get (readBits (255 :: List.replicate 100 0) 8 ⟨0, 0, 0⟩) (255, ⟨0, 16, 3⟩) (by decide +kernel)
    have hd : ∃ im, decompress R inv (255 :: List.replicate 100 0) 16 16 1 spacing 8 = .ok (im, true) := by
      unfold decompress
      rw [e]
      simp only [Except.bind, show 16 * 16 / 256 = 1 by decide, hg, Except.map]
      simp only [show corners 16 16 = [(0, 0)] by decide, show List.range 8 = [0, 1, 2, 3, 4, 5, 6, 7] by decide, levels, levelLoop, readBlock, hl, h1, h2,
        Except.bind, readCoefs, List.zip, List.zipWith, List.any]
      exact ⟨_, rfl⟩
    obtain ⟨im, hd⟩ := hd
    rcases h with h | ⟨px, h, _⟩
    · rw [hd] at h
      simp at h
    · rw [hd] at h
      simp at h

end Verif.Moc
