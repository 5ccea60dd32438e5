import Verif.Spec.Msl

namespace Verif.Msl
open Verif.Py Verif.Bits Spec

/-! ### bits -/

/-- the reading position after `n` bits -/
def at' (n : Nat) : In := ⟨n / 8, n % 8⟩

theorem bits_length (bs : Bytes) : (bits bs).length = 8 * bs.length := by
  induction bs with
  | nil => rfl
  | cons b bs ih => simp only [bits, List.flatMap_cons, List.length_append, List.length_cons] at *; simp [bitsOfNat] at *; omega

theorem bits_append (a b : Bytes) : bits (a ++ b) = bits a ++ bits b := by simp [bits]

theorem bits_get (bs : Bytes) (p k : Nat) (hk : k < 8) :
    (bits bs)[8 * p + k]? = (bs[p]?).map (fun b => b.toNat.testBit (7 - k)) := by
  induction bs generalizing p with
  | nil => simp [bits]
  | cons b bs ih =>
    have hl : (bitsOfNat 8 b.toNat).length = 8 := by simp [bitsOfNat]
    have e : bits (b :: bs) = bitsOfNat 8 b.toNat ++ bits bs := rfl
    rw [e]
    cases p with
    | zero =>
      rw [List.getElem?_append_left (by omega)]
      simp [bitsOfNat, hk]
    | succ p =>
      rw [List.getElem?_append_right (by omega), hl]
      have : 8 * (p + 1) + k - 8 = 8 * p + k := by omega
      rw [this, ih]; simp

theorem bits_drop (bs : Bytes) (p : Nat) : bits (bs.drop p) = (bits bs).drop (8 * p) := by
  induction bs generalizing p with
  | nil => simp [bits]
  | cons b bs ih =>
    cases p with
    | zero => rfl
    | succ p =>
      have e : bits (b :: bs) = bitsOfNat 8 b.toNat ++ bits bs := rfl
      rw [List.drop_succ_cons, ih, e, List.drop_append]
      have hl : (bitsOfNat 8 b.toNat).length = 8 := by simp [bitsOfNat]
      have h0 : (bitsOfNat 8 b.toNat).drop (8 * (p + 1)) = [] := List.drop_eq_nil_of_le (by omega)
      rw [hl, h0, show 8 * (p + 1) - 8 = 8 * p by omega]; rfl

theorem nextBit_at (file : Bytes) (n : Nat) :
    nextBit file (at' n) = ((bits file)[n]?).map (fun b => (b, at' (n + 1))) := by
  have h := bits_get file (n / 8) (n % 8) (by omega)
  rw [show 8 * (n / 8) + n % 8 = n by omega] at h
  rw [h]
  unfold nextBit at'
  simp only
  cases file[n / 8]? with
  | none => rfl
  | some b =>
    simp only [Option.map_some]
    congr 1
    refine Prod.ext ?_ ?_
    · simp only [Nat.testBit_eq_decide_div_mod_eq, Nat.shiftRight_eq_div_pow, Nat.and_one_is_mod]
    · simp only
      split
      · congr 1 <;> omega
      · congr 1 <;> omega

theorem nextBit_cons {file : Bytes} {n : Nat} {b : Bool} {rest : List Bool} (h : (bits file).drop n = b :: rest) :
    nextBit file (at' n) = some (b, at' (n + 1)) ∧ (bits file).drop (n + 1) = rest := by
  have h1 : (bits file)[n]? = some b := by
    have := congrArg (fun l => l[0]?) h
    simpa using this
  refine ⟨by rw [nextBit_at, h1]; rfl, ?_⟩
  have := congrArg (List.drop 1) h
  simpa [List.drop_drop, Nat.add_comm] using this

theorem nextBit_nil {file : Bytes} {n : Nat} (h : (bits file).drop n = []) : nextBit file (at' n) = none := by
  have h1 : (bits file)[n]? = none := by
    rw [List.getElem?_eq_none_iff]
    rw [List.drop_eq_nil_iff] at h
    exact h
  rw [nextBit_at, h1]; rfl

/-! ### codes -/

/-- where a string of bits leads from a node: a value, if it is a whole code -/
def path : Nat → List Bool → Option Nat
  | _, [] => none
  | node, b :: bs =>
    match descend node b with
    | .inl n => path n bs
    | .inr v => if bs = [] then some v else none

theorem walk_path (file : Bytes) (c rest : List Bool) (v : Nat) :
    ∀ (node n fuel : Nat), (bits file).drop n = c ++ rest → path node c = some v → c.length ≤ fuel →
      walk file fuel node (at' n) = some (v, at' (n + c.length)) := by
  induction c with
  | nil => intro node n fuel _ hp; simp [path] at hp
  | cons b bs ih =>
    intro node n fuel hd hp hf
    cases fuel with
    | zero => simp at hf
    | succ fuel =>
      obtain ⟨h1, h2⟩ := nextBit_cons hd
      rw [walk, h1]
      simp only
      rw [path] at hp
      cases hde : descend node b with
      | inl m =>
        rw [hde] at hp
        simp only at hp ⊢
        rw [ih m (n + 1) fuel h2 hp (by simpa using hf)]
        simp; congr 1; omega
      | inr w =>
        rw [hde] at hp
        simp only at hp ⊢
        split at hp
        · rename_i h; subst h; cases hp; rfl
        · cases hp

set_option maxRecDepth 20000 in
theorem codes_check : (List.range 256).all (fun v => path 0 (code v) == some v) = true := by decide +kernel

theorem code_path (v : Nat) (h : v < 256) : path 0 (code v) = some v := by
  have := List.all_eq_true.1 codes_check v (by simpa using h)
  simpa using this

theorem nextValue_code (file : Bytes) (n v : Nat) (rest : List Bool) (hv : v < 256)
    (h : (bits file).drop n = code v ++ rest) :
    nextValue file (at' n) = some (v, at' (n + (code v).length)) := by
  apply walk_path file (code v) rest v 0 n _ h (code_path v hv)
  have := congrArg List.length h
  simp [bits_length] at this
  omega

/-! ### words and sync -/

/-- the number a string of bits stands for -/
def num : List Bool → Nat
  | [] => 0
  | b :: bs => b.toNat * 2 ^ bs.length + num bs

theorem num_lt (l : List Bool) : num l < 2 ^ l.length := by
  induction l with
  | nil => simp [num]
  | cons b bs ih =>
    simp only [num, List.length_cons, Nat.pow_succ]
    cases b <;> simp <;> omega

theorem num_inj (l l' : List Bool) (hl : l.length = l'.length) (h : num l = num l') : l = l' := by
  induction l generalizing l' with
  | nil => cases l' <;> simp_all
  | cons b bs ih =>
    cases l' with
    | nil => simp at hl
    | cons b' bs' =>
      have hl' : bs.length = bs'.length := by simpa using hl
      have h1 := num_lt bs
      have h2 := num_lt bs'
      rw [← hl'] at h2
      simp only [num, ← hl'] at h
      cases b <;> cases b' <;> simp only [Bool.toNat_true, Bool.toNat_false] at h
      · rw [ih _ hl' (by omega)]
      · omega
      · omega
      · rw [ih _ hl' (by omega)]

theorem readWord_bits (file : Bytes) (w : List Bool) :
    ∀ (n A : Nat) (rest : List Bool), (bits file).drop n = w ++ rest →
      readWord file w.length (at' n) (A * 2 ^ w.length) = some (A * 2 ^ w.length + num w, at' (n + w.length)) := by
  induction w with
  | nil => intro n A rest _; simp [readWord, num]
  | cons b bs ih =>
    intro n A rest h
    obtain ⟨h1, h2⟩ := nextBit_cons h
    rw [List.length_cons, readWord, h1]
    simp only
    have e : (A * 2 ^ (bs.length + 1)) ||| (b.toNat <<< bs.length) = (2 * A + b.toNat) * 2 ^ bs.length := by
      have hb : b.toNat <<< bs.length < 2 ^ (bs.length + 1) := by
        rw [Nat.shiftLeft_eq, Nat.pow_succ]
        have := Nat.two_pow_pos bs.length
        cases b <;> simp <;> omega
      have := Nat.shiftLeft_add_eq_or_of_lt hb A
      rw [Nat.shiftLeft_eq] at this
      rw [← this, Nat.shiftLeft_eq, Nat.pow_succ, Nat.add_mul]
      congr 1
      rw [Nat.mul_comm (2 ^ bs.length) 2, ← Nat.mul_assoc, Nat.mul_comm A 2]
    rw [e, ih (n + 1) _ rest h2]
    congr 1
    refine Prod.ext ?_ ?_
    · simp only [num, Nat.pow_succ]
      rw [Nat.add_mul, Nat.add_assoc]
      congr 1
      rw [Nat.mul_comm (2 ^ bs.length) 2, ← Nat.mul_assoc, Nat.mul_comm A 2]
    · simp only; congr 1; omega

theorem readWord_short (file : Bytes) (k : Nat) :
    ∀ (n A : Nat), (bits file).length < n + k → n ≤ (bits file).length →
      readWord file k (at' n) A = none := by
  induction k with
  | zero => intro n A h h'; omega
  | succ k ih =>
    intro n A h h'
    rw [readWord]
    by_cases hn : n = (bits file).length
    · rw [nextBit_nil (by simp [hn])]
    · obtain ⟨b, rest, hb⟩ : ∃ b rest, (bits file).drop n = b :: rest := by
        cases hd : (bits file).drop n with
        | nil => rw [List.drop_eq_nil_iff] at hd; omega
        | cons b rest => exact ⟨b, rest, rfl⟩
      rw [(nextBit_cons hb).1]
      exact ih _ _ (by omega) (by omega)

theorem num_sync : num (bits sync) = predSync := by decide

theorem bits_inj (a b : Bytes) (hl : a.length = b.length) (h : bits a = bits b) : a = b := by
  apply List.ext_getElem hl
  intro i h1 h2
  apply UInt8.toNat_inj.1
  have ha := a[i].toNat_lt
  have hb := b[i].toNat_lt
  apply Nat.eq_of_testBit_eq
  intro k
  by_cases hk : k < 8
  · have e1 := bits_get a i (7 - k) (by omega)
    have e2 := bits_get b i (7 - k) (by omega)
    rw [h, e2] at e1
    rw [List.getElem?_eq_getElem h1, List.getElem?_eq_getElem h2] at e1
    simp only [Option.map_some, Option.some.injEq] at e1
    rw [show 7 - (7 - k) = k by omega] at e1
    exact e1.symm
  · have e : 2 ^ 8 ≤ 2 ^ k := Nat.pow_le_pow_right (by omega) (by omega)
    rw [Nat.testBit_lt_two_pow (by omega), Nat.testBit_lt_two_pow (by omega)]

/-- one round of `find_sync` at a byte position -/
theorem readWord_bytes (file : Bytes) (p : Nat) (w rest : Bytes) (hw : w.length = 4) (h : file.drop p = w ++ rest) :
    ∃ x, readWord file 32 (at' (8 * p)) 0 = some (x, at' (8 * (p + 4))) ∧ (x = predSync ↔ w = sync) := by
  have hb : (bits file).drop (8 * p) = bits w ++ bits rest := by rw [← bits_drop, h, bits_append]
  have hl : (bits w).length = 32 := by rw [bits_length, hw]
  have := readWord_bits file (bits w) (8 * p) 0 (bits rest) hb
  rw [hl] at this
  simp only [Nat.zero_mul, Nat.zero_add] at this
  refine ⟨num (bits w), by rw [this, show 8 * p + 32 = 8 * (p + 4) by omega], ?_⟩
  rw [← num_sync]
  constructor
  · intro hx
    exact bits_inj _ _ (by rw [hw]; rfl) (num_inj _ _ (by rw [hl, bits_length]; rfl) hx)
  · rintro rfl; rfl

theorem rewind_at (p : Nat) : rewind (at' (8 * (p + 4))) 3 = at' (8 * (p + 1)) := by
  simp only [rewind, at']; congr 1 <;> omega

theorem findSync_found (file : Bytes) (junk rest : Bytes) :
    ∀ (p fuel : Nat), file.drop p = junk ++ sync ++ rest → ¬ sync <:+: junk → junk.length < fuel →
      findSync file fuel (at' (8 * p)) = some (at' (8 * (p + junk.length + 4))) := by
  induction junk with
  | nil =>
    intro p fuel h _ hf
    cases fuel with
    | zero => simp at hf
    | succ fuel =>
      obtain ⟨x, h1, h2⟩ := readWord_bytes file p sync rest rfl (by simpa using h)
      rw [findSync, h1]
      simp [h2.2 rfl]
  | cons a j ih =>
    intro p fuel h hs hf
    cases fuel with
    | zero => simp at hf
    | succ fuel =>
      have hw : ∃ w r, file.drop p = w ++ r ∧ w.length = 4 ∧ w ≠ sync := by
        refine ⟨(file.drop p).take 4, (file.drop p).drop 4, (List.take_append_drop _ _).symm, ?_, ?_⟩
        · rw [h]; simp [sync]; omega
        · rw [h]
          intro hc
          match j, hs, hc with
          | [], _, hc => simp [sync] at hc
          | [b], _, hc => simp [sync] at hc
          | [b, c], _, hc => simp [sync] at hc
          | b :: c :: d :: j', hs, hc =>
            apply hs
            simp only [List.cons_append, List.take_succ_cons, List.take_zero] at hc
            exact ⟨[], j', by rw [← hc]; rfl⟩
      obtain ⟨w, r, hw1, hw2, hw3⟩ := hw
      obtain ⟨x, h1, h2⟩ := readWord_bytes file p w r hw2 hw1
      rw [findSync, h1]
      simp only
      rw [if_neg (fun hx => hw3 (h2.1 hx)), rewind_at]
      have hd : file.drop (p + 1) = j ++ sync ++ rest := by
        have := congrArg (List.drop 1) h
        simpa [List.drop_drop, Nat.add_comm] using this
      rw [ih (p + 1) fuel hd ?_ (by simpa using hf)]
      · simp; congr 1; omega
      · intro hi
        exact hs (hi.trans (List.suffix_cons a j).isInfix)

/-- no sync word: not found, whatever the fuel -/
theorem findSync_none (file : Bytes) (rest : Bytes) :
    ∀ (p fuel : Nat), file.drop p = rest → ¬ sync <:+: rest → p ≤ file.length →
      findSync file fuel (at' (8 * p)) = none := by
  induction rest with
  | nil =>
    intro p fuel h _ hp
    cases fuel with
    | zero => rfl
    | succ fuel =>
      have hl := congrArg List.length h
      simp at hl
      rw [findSync, readWord_short file 32 (8 * p) 0 (by rw [bits_length]; omega) (by rw [bits_length]; omega)]
  | cons a r ih =>
    intro p fuel h hs hp
    cases fuel with
    | zero => rfl
    | succ fuel =>
      have hl := congrArg List.length h
      simp at hl
      by_cases h4 : 3 ≤ r.length
      · obtain ⟨x, h1, h2⟩ := readWord_bytes file p ((file.drop p).take 4) ((file.drop p).drop 4)
          (by rw [h]; simp; omega) (List.take_append_drop _ _).symm
        rw [findSync, h1]
        simp only
        rw [if_neg, rewind_at]
        · refine ih (p + 1) fuel ?_ ?_ (by omega)
          · have := congrArg (List.drop 1) h
            simpa [List.drop_drop, Nat.add_comm] using this
          · intro hi
            exact hs (hi.trans (List.suffix_cons a r).isInfix)
        · intro hx
          apply hs
          have := h2.1 hx
          rw [h] at this
          exact ⟨[], (a :: r).drop 4, by rw [← this]; simp⟩
      · rw [findSync, readWord_short file 32 (8 * p) 0 (by rw [bits_length]; omega) (by rw [bits_length]; omega)]

/-! ### a plane -/

theorem deltas_codes (file : Bytes) (rest : List Bool) (xs : List Nat) :
    ∀ (n prev : Nat), prev < 256 → (∀ x ∈ xs, x < 256) →
      (bits file).drop n = (differences prev xs).flatMap code ++ rest →
      deltas file xs.length prev (at' n) =
        some (xs, at' (n + ((differences prev xs).flatMap code).length)) := by
  induction xs with
  | nil => intro n prev _ _ _; simp [deltas, differences]
  | cons x xs ih =>
    intro n prev hp hx h
    have hx0 := hx x (by simp)
    simp only [differences, List.flatMap_cons, List.append_assoc] at h
    have h1 := nextValue_code file n ((x + 256 - prev) % 256) _ (Nat.mod_lt _ (by omega)) h
    have h2 : (bits file).drop (n + (code ((x + 256 - prev) % 256)).length) =
        (differences x xs).flatMap code ++ rest := by
      have := congrArg (List.drop (code ((x + 256 - prev) % 256)).length) h
      rw [List.drop_drop, List.drop_left] at this
      exact this
    rw [List.length_cons, deltas, h1]
    simp only
    have e : (prev + (((x + 256 - prev) % 256) &&& 0xff)) &&& 0xff = x := by
      have hm (a : Nat) : a &&& 0xff = a % 256 := Nat.and_two_pow_sub_one_eq_mod a 8
      rw [hm, hm]; omega
    rw [e, ih _ x hx0 (fun y hy => hx y (by simp [hy])) h2]
    simp [differences, List.flatMap_cons, Nat.add_assoc]

theorem align_to (file : Bytes) (m : Nat) (hm : m % 32 = 0) (hf : m ≤ 8 * file.length) :
    ∀ (fuel n : Nat), n ≤ m → m - n ≤ fuel → m - n < 32 → align file fuel (at' n) = some (at' m) := by
  intro fuel
  induction fuel with
  | zero =>
    intro n h1 h2 h3
    have : n = m := by omega
    subst this
    rw [align, if_neg]
    simp only [at']; omega
  | succ fuel ih =>
    intro n h1 h2 h3
    by_cases hn : n = m
    · subst hn
      rw [align, if_neg]
      simp only [at']; omega
    · rw [align, if_pos (by simp only [at']; omega)]
      obtain ⟨b, rest, hb⟩ : ∃ b rest, (bits file).drop n = b :: rest := by
        cases hd : (bits file).drop n with
        | nil => rw [List.drop_eq_nil_iff, bits_length] at hd; omega
        | cons b rest => exact ⟨b, rest, rfl⟩
      rw [(nextBit_cons hb).1]
      exact ih (n + 1) (by omega) (by omega) (by omega)

theorem decodeX_segment (file : Bytes) (pos : Nat) (xs : List Nat) (seg rest : Bytes) (hx : ∀ x ∈ xs, x < 256)
    (hs : Segment pos xs seg) (h : file.drop pos = seg ++ rest) :
    decodeX file xs.length (at' (8 * pos)) = .ok (xs, at' (8 * (pos + seg.length))) := by
  obtain ⟨⟨junk, body, pad, rfl, hj, hb, hpad⟩, hal⟩ := hs
  have hlen := congrArg List.length h
  simp only [List.length_drop, List.length_append] at hlen
  have hs4 : sync.length = 4 := rfl
  have h1 := findSync_found file junk (body ++ rest) pos (file.length + 1) (by rw [h]; simp) hj (by omega)
  have hbit : (bits file).drop (8 * (pos + junk.length + 4)) =
      (differences 0 xs).flatMap code ++ (pad ++ bits rest) := by
    have : file.drop (pos + junk.length + 4) = body ++ rest := by
      have := congrArg (List.drop (junk ++ sync).length) h
      rw [List.drop_drop] at this
      have e : (junk ++ sync ++ body ++ rest).drop (junk ++ sync).length = body ++ rest := by
        rw [List.append_assoc (junk ++ sync), List.drop_left]
      rw [e] at this
      rw [← this]; simp [hs4, Nat.add_assoc]
    rw [← bits_drop, this, bits_append, hb]; simp
  have h2 := deltas_codes file _ xs (8 * (pos + junk.length + 4)) 0 (by omega) hx hbit
  have hbl := congrArg List.length hb
  rw [bits_length, List.length_append] at hbl
  simp only [List.length_append, hs4] at hal
  have h3 := align_to file (8 * (pos + (junk ++ sync ++ body).length)) (by simp only [List.length_append, hs4]; omega)
    (by simp only [List.length_append, hs4]; omega) 32
    (8 * (pos + junk.length + 4) + ((differences 0 xs).flatMap code).length)
    (by simp only [List.length_append, hs4]; omega) (by simp only [List.length_append, hs4]; omega)
    (by simp only [List.length_append, hs4]; omega)
  rw [decodeX, h1]
  simp only [h2, h3]

theorem decodePlanes_segments (file : Bytes) (W : Nat) (xss : List (List Nat)) :
    ∀ (pos : Nat) (seg rest : Bytes), (∀ xs ∈ xss, xs.length = W ∧ ∀ x ∈ xs, x < 256) → Segments pos xss seg →
      file.drop pos = seg ++ rest →
      decodePlanes file W xss.length (at' (8 * pos)) = .ok (xss, at' (8 * (pos + seg.length))) := by
  induction xss with
  | nil => intro pos seg rest _ hs _; cases hs; rfl
  | cons xs xss ih =>
    intro pos seg rest hx hs h
    cases hs with
    | @cons _ _ s1 _ s2 h1 h2 =>
      obtain ⟨hw, hx0⟩ := hx xs (by simp)
      have hd : file.drop (pos + s1.length) = s2 ++ rest := by
        have := congrArg (List.drop s1.length) h
        rw [List.drop_drop, List.append_assoc, List.drop_left] at this
        exact this
      have e1 := decodeX_segment file pos xs s1 (s2 ++ rest) hx0 h1 (by rw [h]; simp)
      rw [hw] at e1
      have e2 := ih (pos + s1.length) s2 rest (fun y hy => hx y (by simp [hy])) h2 hd
      rw [List.length_cons, decodePlanes, e1]
      simp only [e2, List.length_append, Nat.add_assoc]

theorem segments_append {pos : Nat} {xss yss : List (List Nat)} {seg : Bytes} (h : Segments pos (xss ++ yss) seg) :
    ∃ s1 s2, seg = s1 ++ s2 ∧ Segments pos xss s1 ∧ Segments (pos + s1.length) yss s2 := by
  induction xss generalizing pos seg with
  | nil => exact ⟨[], seg, rfl, .nil, by simpa using h⟩
  | cons xs xss ih =>
    cases h with
    | @cons _ _ s1 _ s2 h1 h2 =>
      obtain ⟨a, b, rfl, h3, h4⟩ := ih h2
      exact ⟨s1 ++ a, b, by simp, .cons h1 h3, by simpa [Nat.add_assoc] using h4⟩

theorem segments_aligned {pos : Nat} {xss : List (List Nat)} {seg : Bytes} (h : Segments pos xss seg)
    (hne : xss ≠ []) : (pos + seg.length) % 4 = 0 ∧ 4 ≤ seg.length := by
  induction h with
  | nil => exact absurd rfl hne
  | @cons pos xs s1 xss s2 h1 h2 ih =>
    have h4 : 4 ≤ s1.length := by
      obtain ⟨⟨junk, body, pad, rfl, _⟩, _⟩ := h1
      simp only [List.length_append]
      have : sync.length = 4 := rfl
      omega
    cases xss with
    | nil => cases h2; simpa using ⟨h1.aligned, h4⟩
    | cons y ys =>
      have := ih (by simp)
      simp only [List.length_append]
      omega

/-! ### rows -/

theorem interleave_map (f g : Nat → Nat) (n : Nat) : ∀ s,
    interleave ((List.range' s n).map f) ((List.range' s n).map g) =
      (List.range' (2 * s) (2 * n)).map (fun c => if c % 2 = 0 then f (c / 2) else g (c / 2)) := by
  induction n with
  | zero => intro s; rfl
  | succ n ih =>
    intro s
    rw [show 2 * (n + 1) = 2 * n + 1 + 1 by omega]
    simp only [List.range'_succ, List.map_cons, interleave, ih (s + 1)]
    rw [if_pos (by omega), if_neg (by omega), show 2 * s / 2 = s by omega, show (2 * s + 1) / 2 = s by omega,
      show 2 * (s + 1) = 2 * s + 1 + 1 by omega]

theorem interleave_range (f g : Nat → Nat) (n : Nat) :
    interleave ((List.range n).map f) ((List.range n).map g) =
      (List.range (2 * n)).map (fun c => if c % 2 = 0 then f (c / 2) else g (c / 2)) := by
  have := interleave_map f g n 0
  simpa [List.range_eq_range'] using this

/-- `n` rows of `half` elements from row `r` on -/
def block (half n r : Nat) (g : Nat → Nat → Nat) : List Nat :=
  (List.range (n * half)).map (fun i => g (r + i / half) (i % half))

theorem block_take (half n r : Nat) (g : Nat → Nat → Nat) :
    (block half (n + 1) r g).take half = (List.range half).map (g r) := by
  unfold block
  rw [← List.map_take, List.take_range, Nat.min_eq_left (by rw [Nat.add_mul]; omega)]
  apply List.map_congr_left
  intro i hi
  have := List.mem_range.1 hi
  rw [Nat.div_eq_of_lt this, Nat.mod_eq_of_lt this]; rfl

theorem block_drop (half n r : Nat) (hh : 0 < half) (g : Nat → Nat → Nat) :
    (block half (n + 1) r g).drop half = block half n (r + 1) g := by
  unfold block
  rw [List.range_eq_range', List.range_eq_range', ← List.map_drop, List.drop_range']
  have e : List.range' (0 + half * 1) ((n + 1) * half - half) = (List.range' 0 (n * half)).map (half + ·) := by
    rw [List.map_add_range']
    congr 1
    · omega
    · rw [Nat.add_mul]; omega
  rw [e, List.map_map]
  apply List.map_congr_left
  intro i _
  simp only [Function.comp]
  rw [Nat.add_comm half i, Nat.add_div_right _ hh, Nat.add_mod_right]
  congr 1; omega

theorem weave_blocks (half : Nat) (hh : 0 < half) (a b c d : Nat → Nat → Nat) (n : Nat) : ∀ r,
    weave half n (block half n r a) (block half n r b) (block half n r c) (block half n r d) =
      (List.range' r n).flatMap (fun m =>
        (List.range (2 * half)).map (fun x => if x % 2 = 0 then a m (x / 2) else b m (x / 2)) ++
        (List.range (2 * half)).map (fun x => if x % 2 = 0 then c m (x / 2) else d m (x / 2))) := by
  induction n with
  | zero => intro r; rfl
  | succ n ih =>
    intro r
    simp only [weave, block_take, block_drop _ _ _ hh, ih (r + 1), interleave_range, List.range'_succ,
      List.flatMap_cons]

theorem plane_eq_block (pix : Nat → Nat → Nat) (w j k : Nat) (hw : w % 2 = 0) :
    plane pix w j k = block (w / 2) 4 0 (fun m x => pix (8 * j + 2 * m + k / 2) (2 * x + k % 2)) := by
  unfold plane block
  rw [show 4 * (w / 2) = 2 * w by omega]
  apply List.map_congr_left
  intro i _
  simp

theorem weave_planes (pix : Nat → Nat → Nat) (w j : Nat) (hw : w % 2 = 0) (h0 : 0 < w) :
    weave (w / 2) 4 (plane pix w j 0) (plane pix w j 1) (plane pix w j 2) (plane pix w j 3) =
      (List.range' (8 * j) 8).flatMap (fun r => (List.range w).map (pix r)) := by
  rw [plane_eq_block _ _ _ _ hw, plane_eq_block _ _ _ _ hw, plane_eq_block _ _ _ _ hw, plane_eq_block _ _ _ _ hw,
    weave_blocks (w / 2) (by omega)]
  have hrow : ∀ (r : Nat), (List.range (2 * (w / 2))).map
      (fun x => if x % 2 = 0 then pix r (2 * (x / 2)) else pix r (2 * (x / 2) + 1)) = (List.range w).map (pix r) := by
    intro r
    rw [show 2 * (w / 2) = w by omega]
    apply List.map_congr_left
    intro x _
    by_cases hx : x % 2 = 0
    · simp only [hx, if_true]; congr 1; omega
    · simp only [hx, if_false]; congr 1; omega
  simp only [Nat.reduceDiv, Nat.reduceMod, Nat.add_zero]
  simp only [hrow]
  simp [List.range'_succ, Nat.add_assoc]

/-! ### the image -/

theorem plane_mem_lt (pix : Nat → Nat → Nat) (w j k : Nat) (hp : ∀ r c, pix r c < 256) :
    (plane pix w j k).length = 2 * w ∧ ∀ x ∈ plane pix w j k, x < 256 := by
  refine ⟨by simp [plane], ?_⟩
  intro x hx
  simp only [plane, List.mem_map] at hx
  obtain ⟨i, _, rfl⟩ := hx
  exact hp _ _

theorem chunks_segments (file : Bytes) (pix : Nat → Nat → Nat) (w : Nat) (hw : w % 2 = 0) (h0 : 0 < w)
    (hp : ∀ r c, pix r c < 256) (n extra : Nat) :
    ∀ (j pos : Nat) (seg rest : Bytes),
      Segments pos ((List.range' j n).flatMap (fun j => (List.range 4).map (plane pix w j))) seg →
      file.drop pos = seg ++ rest → pos ≤ file.length → (extra = 0 ∨ rest = []) →
      chunks file w (n + extra) (at' (8 * pos)) =
        .ok ((List.range' (8 * j) (8 * n)).flatMap (fun r => (List.range w).map (pix r))) := by
  induction n with
  | zero =>
    intro j pos seg rest hs h hle hrest
    cases hs
    cases extra with
    | zero => rfl
    | succ e =>
      have hr : rest = [] := by rcases hrest with h | h; · omega
                                · exact h
      subst hr
      have := congrArg List.length h
      simp at this
      rw [Nat.zero_add, chunks, if_pos (by simp only [at']; omega)]
      rfl
  | succ n ih =>
    intro j pos seg rest hs h hle hrest
    rw [List.range'_succ, List.flatMap_cons] at hs
    obtain ⟨s1, s2, rfl, h1, h2⟩ := segments_append hs
    have hlen := congrArg List.length h
    simp only [List.length_drop, List.length_append] at hlen
    have hal := segments_aligned h1 (by simp)
    have hd : file.drop (pos + s1.length) = s2 ++ rest := by
      have := congrArg (List.drop s1.length) h
      rw [List.drop_drop, List.append_assoc, List.drop_left] at this
      exact this
    have e1 := decodePlanes_segments file (2 * w) _ pos s1 (s2 ++ rest) (by
      intro xs hxs
      simp only [List.mem_map] at hxs
      obtain ⟨k, _, rfl⟩ := hxs
      exact plane_mem_lt pix w j k hp) h1 (by rw [h]; simp)
    have e2 := ih (j + 1) (pos + s1.length) s2 rest h2 hd (by omega) hrest
    rw [show n + 1 + extra = n + extra + 1 by omega, chunks, if_neg (by simp only [at']; omega)]
    rw [show 8 * w / 4 = 2 * w by omega]
    have el : ((List.range 4).map (plane pix w j)) =
        [plane pix w j 0, plane pix w j 1, plane pix w j 2, plane pix w j 3] := rfl
    rw [el] at e1
    simp only [List.length_cons, List.length_nil] at e1
    rw [show (0 + 1 + 1 + 1 + 1 : Nat) = 4 from rfl] at e1
    rw [e1]
    simp only [e2]
    rw [weave_planes _ _ _ hw h0]
    congr 1
    rw [show 8 * (n + 1) = 8 + 8 * n by omega, ← List.range'_append, List.flatMap_append]
    rw [show 8 * j + 1 * 8 = 8 * (j + 1) by omega]

end Verif.Msl
