/-
Decoding the bytes of a table: words, IEEE 754 values, records, columns.
-/
import Verif.Spec.Table
import Verif.Lemmas.Bits
import Verif.Props.Datatypes
import Verif.Props.Ibm
import Mathlib.Tactic.FieldSimp
import Mathlib.Tactic.Ring

namespace Verif.Table
open Verif.Py Verif.Format Verif.Datatypes Verif.Datatypes.Spec Verif.Bits Verif.NumPy Verif.Scaling Verif.Float Verif.Table.Spec
open Verif.Ibm.Spec (ibmValue)

theorem word_number (o : Order) (bs : Bytes) : wordValue o bs = number o bs := by
  have hl : ∀ bs : Bytes, wordValue .little bs = Nat.ofDigits 256 (bs.map UInt8.toNat) := by
    intro bs
    unfold wordValue
    induction bs with
    | nil => rfl
    | cons b bs ih =>
      simp only at ih ⊢
      rw [List.foldr_cons, ih, List.map_cons, Nat.ofDigits_cons]
      ring
  cases o with
  | little => exact hl bs
  | big =>
    have := hl bs.reverse
    rw [wordValue_little, List.reverse_reverse] at this
    exact this

theorem number_lt (o : Order) (bs : Bytes) : number o bs < 2 ^ (8 * bs.length) := by
  rw [← word_number]
  cases o with
  | big => exact wordValue_lt bs
  | little => rw [wordValue_little]; simpa using wordValue_lt bs.reverse

/-! ### IEEE 754 -/

theorem parts_eq {m e w s ex f : Nat} (h : Parts m e w s ex f) :
    w % 2 ^ m = f ∧ w / 2 ^ m % 2 ^ e = ex ∧ w / 2 ^ (m + e) % 2 = s := by
  obtain ⟨hs, he, hf, rfl⟩ := h
  have hm : 0 < 2 ^ m := by positivity
  have hp : 0 < 2 ^ e := by positivity
  have h1 : ((s * 2 ^ e + ex) * 2 ^ m + f) / 2 ^ m = s * 2 ^ e + ex := by
    rw [Nat.add_comm, Nat.add_mul_div_right _ _ hm, Nat.div_eq_of_lt hf, Nat.zero_add]
  refine ⟨?_, ?_, ?_⟩
  · rw [Nat.add_comm, Nat.add_mul_mod_self_right, Nat.mod_eq_of_lt hf]
  · rw [h1, Nat.add_comm, Nat.add_mul_mod_self_right, Nat.mod_eq_of_lt he]
  · rw [pow_add, ← Nat.div_div_eq_div_mul, h1, Nat.add_comm, Nat.add_mul_div_right _ _ hp, Nat.div_eq_of_lt he, Nat.zero_add,
      Nat.mod_eq_of_lt hs]

theorem ieee_real {m e w : Nat} {x : ℚ} (h : IsReal m e w x) : ieee m e w = some x := by
  obtain ⟨s, ex, f, hp, hex, rfl⟩ := h
  obtain ⟨h1, h2, h3⟩ := parts_eq hp
  have hs : (-1 : ℚ) ^ s = if s = 1 then -1 else 1 := by
    have := hp.1
    rcases (by omega : s = 0 ∨ s = 1) with rfl | rfl <;> simp
  unfold ieee
  simp only [h1, h2, h3]
  rw [if_neg (by omega), hs]
  generalize (2 : Int) ^ (e - 1) = B
  by_cases h0 : ex = 0
  · rw [if_pos h0, if_pos h0]
    congr 2
    rw [show (1 - (B - 1) - m : Int) = (2 - B) - m by ring, zpow_sub₀ two_ne_zero, zpow_natCast]
    ring
  · rw [if_neg h0, if_neg h0]
    congr 2
    rw [zpow_sub₀ two_ne_zero _ (m : Int), zpow_natCast]
    push_cast
    field_simp

theorem ieee_not {m e w : Nat} (h : IsNotFinite m e w) : ieee m e w = none := by
  obtain ⟨s, f, hp⟩ := h
  obtain ⟨h1, h2, h3⟩ := parts_eq hp
  unfold ieee
  simp only [h2, if_true]

theorem signedOf_eq (n w : Nat) (v : Int) (hn : 0 < n) (hw : w < 2 ^ (8 * n)) (h : (v - w) % 2 ^ (8 * n) = 0)
    (h1 : -(2 ^ (8 * n - 1)) ≤ v) (h2 : v < 2 ^ (8 * n - 1)) : signedOf (8 * n) w = v := by
  have e : (2 : Int) ^ (8 * n) = 2 * 2 ^ (8 * n - 1) := by
    rw [← pow_succ', show 8 * n - 1 + 1 = 8 * n by omega]
  have hw' : (w : Int) < 2 * 2 ^ (8 * n - 1) := by rw [← e]; exact_mod_cast hw
  obtain ⟨k, hk⟩ := Int.dvd_of_emod_eq_zero h
  rw [e] at hk
  unfold signedOf
  rw [e]
  have hc : (w < 2 ^ (8 * n - 1)) ↔ ((w : Int) < 2 ^ (8 * n - 1)) := by
    constructor
    · intro h; exact_mod_cast h
    · intro h; exact_mod_cast h
  generalize hP : (2 : Int) ^ (8 * n - 1) = P at *
  have hPpos : 0 < P := by rw [← hP]; positivity
  have hw0 : (0 : Int) ≤ w := by omega
  have hk1 : k < 1 := by
    by_contra hc
    have : 2 * P * 1 ≤ 2 * P * k := Int.mul_le_mul_of_nonneg_left (by omega) (by omega)
    omega
  have hk2 : -2 < k := by
    by_contra hc
    have : 2 * P * k ≤ 2 * P * (-2) := Int.mul_le_mul_of_nonneg_left (by omega) (by omega)
    omega
  rcases (by omega : k = 0 ∨ k = -1) with rfl | rfl
  · rw [if_pos (hc.2 (by omega))]; omega
  · rw [if_neg (by rw [hc]; omega)]; omega

theorem stripNuls_chars (b : Bytes) (k : Nat) (h : b.getLast? ≠ some 0) : stripNuls (b ++ List.replicate k 0) = b := by
  unfold stripNuls
  rw [List.reverse_append, List.reverse_replicate]
  have h1 : ∀ (k : Nat) (l : Bytes), (List.replicate k (0 : UInt8) ++ l).dropWhile (· = 0) = l.dropWhile (· = 0) := by
    intro k l
    induction k with
    | zero => rfl
    | succ k ih => rw [List.replicate_succ, List.cons_append, List.dropWhile_cons_of_pos (by simp), ih]
  rw [h1]
  cases hr : b.reverse with
  | nil =>
    rw [List.reverse_eq_nil_iff] at hr
    subst hr; rfl
  | cons x xs =>
    have hb : b = xs.reverse ++ [x] := by rw [← List.reverse_reverse b, hr, List.reverse_cons]
    have hx : x ≠ 0 := by
      rintro rfl
      apply h
      rw [hb]; simp
    rw [List.dropWhile_cons_of_neg (by simpa using hx), hb]
    simp

/-! ### values -/

/-- a value of a dtype -/
def oneVal (d : Dtype) (bs : Bytes) : Value :=
  let word := fun bs => wordValue (d.order.getD .little) bs
  match d.kind with
  | .int => .int (signedOf (8 * d.size) (word bs))
  | .uint => .int (word bs : Int)
  | .float =>
    if d.size = 4 then (match ieee 23 8 (word bs) with | some x => .real x | none => .notFinite)
    else (match ieee 52 11 (word bs) with | some x => .real x | none => .notFinite)
  | .bytes => .bytes (stripNuls bs)
  | .void => .bytes bs

theorem decodeAll_shows (d : Dtype) (cells : List Bytes) : Shows (decodeAll d cells) (cells.map (oneVal d)) := by
  obtain ⟨o, k, n⟩ := d
  cases k with
  | float =>
    by_cases h : n = 4
    · have : decodeAll ⟨o, .float, n⟩ cells = .floats .f32 (cells.map (fun bs => ieee 23 8 (wordValue (o.getD .little) bs))) := by
        simp only [decodeAll, h, if_true]
      rw [this, Shows, List.map_map]
      refine List.map_congr_left ?_
      intro bs _
      simp only [oneVal, h, if_true, Function.comp_apply]
      cases ieee 23 8 (wordValue (o.getD Order.little) bs) <;> rfl
    · have : decodeAll ⟨o, .float, n⟩ cells = .floats .f64 (cells.map (fun bs => ieee 52 11 (wordValue (o.getD .little) bs))) := by
        simp only [decodeAll, h, if_false]
      rw [this, Shows, List.map_map]
      refine List.map_congr_left ?_
      intro bs _
      simp only [oneVal, h, if_false, Function.comp_apply]
      cases ieee 52 11 (wordValue (o.getD Order.little) bs) <;> rfl
  | int => simp only [decodeAll, Shows, List.map_map]; rfl
  | uint => simp only [decodeAll, Shows, List.map_map]; rfl
  | bytes => simp only [decodeAll, Shows, List.map_map]; rfl
  | void => simp only [decodeAll, Shows]; rfl

theorem stored_val {d : Dtype} {bs : Bytes} {v : Value} (h : Stored d bs v) : oneVal d bs = v := by
  cases h with
  | unsigned hl hv => simp only [oneVal, Option.getD_some, word_number, hv]
  | signed h0 hl hm h1 h2 =>
    rename_i o n v
    simp only [oneVal, Option.getD_some, word_number]
    congr 1
    exact signedOf_eq _ _ _ h0 (by rw [← hl]; exact number_lt o bs) hm h1 h2
  | single hl hr => simp [oneVal, word_number, ieee_real hr]
  | double hl hr => simp [oneVal, word_number, ieee_real hr]
  | singleNot hl hr => simp [oneVal, word_number, ieee_not hr]
  | doubleNot hl hr => simp [oneVal, word_number, ieee_not hr]
  | chars hl hb => simp only [oneVal, stripNuls_chars _ _ hb]
  | raw hl => rfl

/-! ### type names -/

theorem prefix_underscored (s t : Str) (h : ∀ c ∈ s, c ≠ '_' ∧ c ≠ ' ') : s <+: underscored t ↔ s <+: t := by
  induction s generalizing t with
  | nil => simp
  | cons c s ih =>
    cases t with
    | nil => rfl
    | cons x t =>
      have hc := h c (by simp)
      have := ih t (fun c hc => h c (by simp [hc]))
      unfold underscored at this ⊢
      rw [List.map_cons, List.cons_prefix_cons, List.cons_prefix_cons, this]
      refine and_congr_left (fun _ => ?_)
      by_cases hx : x = ' '
      · simp [hx, hc.1, hc.2]
      · simp [hx]

theorem infix_underscored (s t : Str) (h : ∀ c ∈ s, c ≠ '_' ∧ c ≠ ' ') : s <:+: underscored t ↔ s <:+: t := by
  induction t with
  | nil => rfl
  | cons x t ih =>
    have h1 := prefix_underscored s (x :: t) h
    have : underscored (x :: t) = (if x = ' ' then '_' else x) :: underscored t := rfl
    rw [this] at h1 ⊢
    rw [List.infix_cons_iff, List.infix_cons_iff, h1, ih]

theorem means_unique {t : Str} {n : Nat} {d d' : Dtype} (h : Means (underscored t) n d) (h' : Means (underscored t) n d') :
    d = d' := by
  obtain ⟨s, h1, h2, _⟩ := C10_types_mean_what_they_say t n d h
  obtain ⟨s', h1', h2', _⟩ := C10_types_mean_what_they_say t n d' h'
  rw [h1] at h1'
  cases h1'
  rw [h2] at h2'
  exact Option.some.inj h2'

theorem forall_map {α β : Type} {P : α → β → Prop} {f : α → β} (h : ∀ a b, P a b → f a = b) {l : List α} {m : List β}
    (hl : List.Forall₂ P l m) : l.map f = m := by
  induction hl with
  | nil => rfl
  | cons h1 _ ih => rw [List.map_cons, h _ _ h1, ih]

/-- a column of IBM or VAX reals holds the values of its words -/
theorem foreign_shows (src : Source) (hv : ReadsVax src.vax32) (recs : List Bytes) (c : TCol) (n : Nat) (vs : List Value)
    (hnat : ¬ Native c.fld.attrs.dataType) (htot : c.fld.bytes = n) (hne : recs ≠ [])
    (hm : Means (underscored c.fld.attrs.dataType) n c.dt)
    (h : List.Forall₂ (fun r v => Encodes src.cp500 c.fld.attrs.dataType n ((r.drop c.sb.toNat).take c.dt.size) v) recs vs) :
    ∃ w col, columnOf src recs c = .ok (.floats w col) ∧ Shows (.floats w col) vs := by
  obtain ⟨f, sb, d⟩ := c
  simp only at hnat htot hm h
  unfold columnOf
  simp only
  generalize f.attrs.dataType = t at *
  have hkind : underscored t = c!"IBM_REAL" ∧ (n = 4 ∨ n = 8) ∨ underscored t = c!"VAX_REAL" ∧ n = 4 := by
    cases h with
    | nil => exact absurd rfl hne
    | cons h1 _ =>
      cases h1 with
      | plain _ _ _ h3 => exact absurd h3 hnat
      | bool => exact absurd (fun hh => by rcases hh.1 with h | h <;> exact absurd h (by decide)) hnat
      | ebcdic h3 _ =>
        refine absurd (fun hh => ?_) hnat
        rw [← prefix_underscored c!"IBM" _ (by decide), ← prefix_underscored c!"VAX" _ (by decide)] at hh
        simp only [List.mem_cons, List.not_mem_nil, or_false] at h3
        rcases h3 with h | h <;> rw [h] at hh <;> rcases hh.1 with h | h <;> exact absurd h (by decide)
      | ibmShort h3 => exact Or.inl ⟨h3, Or.inl rfl⟩
      | ibmLong h3 => exact Or.inl ⟨h3, Or.inr rfl⟩
      | vax h3 => exact Or.inr ⟨h3, rfl⟩
  have hreal : contains t c!"REAL" = true := by
    rw [contains_iff, ← infix_underscored _ _ (by decide)]
    rcases hkind with ⟨h, _⟩ | ⟨h, _⟩ <;> rw [h] <;> decide
  rcases hkind with ⟨hibm, hn⟩ | ⟨hvax, rfl⟩
  · have hst : startsWith t c!"IBM" = true := by
      rw [startsWith, List.isPrefixOf_iff_prefix, ← prefix_underscored _ _ (by decide), hibm]; decide
    rw [hst, hreal, Bool.and_self, if_pos rfl]
    have hd : d = ⟨some .big, .uint, n⟩ := by
      refine means_unique hm ?_
      rw [hibm]
      exact .ibm (by rcases hn with rfl | rfl <;> decide)
    subst hd
    simp only [Option.getD_some]
    rw [List.map_map]
    have hw : (wordValue Order.big ∘ fun r : Bytes => (r.drop sb.toNat).take n) = fun r => number .big ((r.drop sb.toNat).take n) := by
      funext r; exact word_number _ _
    rw [hw, htot]
    rcases hn with rfl | rfl
    · have hall : ∀ (r : Bytes) v, Encodes src.cp500 t 4 ((r.drop sb.toNat).take 4) v →
          ((r.drop sb.toNat).take 4 : Bytes).length = 4 ∧
          (ibmValue 32 (number .big ((r.drop sb.toNat).take 4)) = 0 ∨ 2 ^ (-126 : Int) ≤ |ibmValue 32 (number .big ((r.drop sb.toNat).take 4))|) ∧
          Value.real (ibmValue 32 (number .big ((r.drop sb.toNat).take 4))) = v := by
        intro r v hx
        generalize (r.drop sb.toNat).take 4 = bs at hx ⊢
        generalize h4 : 4 = m at hx
        cases hx with
        | plain _ _ _ h3 => exact absurd h3 hnat
        | bool => rw [show underscored c!"BOOLEAN" = c!"BOOLEAN" from rfl] at hibm; cases hibm
        | ebcdic h3 _ =>
          rw [hibm] at h3
          exact absurd h3 (by decide)
        | ibmShort _ h1 h2 => exact ⟨h1, h2, rfl⟩
        | ibmLong => cases h4
        | vax h3 => rw [hibm] at h3; cases h3
      have h1 : ∀ w ∈ recs.map (fun r => number .big ((r.drop sb.toNat).take 4)), w < 2 ^ 32 ∧ (ibmValue 32 w = 0 ∨ 2 ^ (-126 : Int) ≤ |ibmValue 32 w|) := by
        intro w hw
        obtain ⟨r, hr, rfl⟩ := List.mem_map.1 hw
        obtain ⟨v, hx⟩ : ∃ v, Encodes src.cp500 t 4 ((r.drop sb.toNat).take 4) v := by
          clear hne hw
          induction h with
          | nil => cases hr
          | cons h1 _ ih =>
            rcases List.mem_cons.1 hr with rfl | h'
            · exact ⟨_, h1⟩
            · exact ih h'
        obtain ⟨e1, e2, _⟩ := hall r v hx
        refine ⟨?_, e2⟩
        have := number_lt .big ((r.drop sb.toNat).take 4)
        rw [e1] at this
        exact this
      have h2 := Ibm.C16_short_column src.R src.R' _ (by simpa using hne) (fun w hw => (h1 w hw).1) (fun w hw => (h1 w hw).2)
      unfold ibmColumn
      rw [if_pos rfl, if_neg (by omega), h2]
      refine ⟨_, _, rfl, ?_⟩
      simp only [Shows, List.map_map]
      exact (forall_map (fun r v hx => (hall r v hx).2.2) h).symm
    · have hall : ∀ (r : Bytes) v, Encodes src.cp500 t 8 ((r.drop sb.toNat).take 8) v →
          Value.real (Ibm.ibm64 src.R (number .big ((r.drop sb.toNat).take 8))) = v := by
        intro r v hx
        generalize (r.drop sb.toNat).take 8 = bs at hx ⊢
        generalize h4 : 8 = m at hx
        cases hx with
        | plain _ _ _ h3 => exact absurd h3 hnat
        | bool => rw [show underscored c!"BOOLEAN" = c!"BOOLEAN" from rfl] at hibm; cases hibm
        | ebcdic h3 _ =>
          rw [hibm] at h3
          exact absurd h3 (by decide)
        | ibmShort => cases h4
        | ibmLong _ h1 h2 =>
          have := number_lt .big bs
          rw [h1] at this
          rw [(Ibm.C16_long src.R _ this).2 h2]
        | vax => cases h4
      unfold ibmColumn
      rw [if_neg (by omega), if_neg (by omega)]
      refine ⟨_, _, rfl, ?_⟩
      simp only [Shows, Ibm.convertLong, List.map_map]
      exact (forall_map (fun r v hx => hall r v hx) h).symm
  · have hst : startsWith t c!"IBM" = false := by
      rw [Bool.eq_false_iff, startsWith, ne_eq, List.isPrefixOf_iff_prefix, ← prefix_underscored _ _ (by decide), hvax]; decide
    have hst' : startsWith t c!"VAX" = true := by
      rw [startsWith, List.isPrefixOf_iff_prefix, ← prefix_underscored _ _ (by decide), hvax]; decide
    rw [hst, hst', hreal, Bool.false_and, if_neg (by simp), Bool.and_self, if_pos rfl]
    have hd : d = ⟨some .little, .uint, 4⟩ := by
      refine means_unique hm ?_
      rw [hvax]
      exact .vax
    subst hd
    refine ⟨_, _, rfl, ?_⟩
    have hall : ∀ (r : Bytes) v, Encodes src.cp500 t 4 ((r.drop sb.toNat).take 4) v →
        (match src.vax32 (wordValue .little ((r.drop sb.toNat).take 4)) with | some x => Value.real x | none => .notFinite) = v := by
      intro r v hx
      rw [word_number]
      generalize (r.drop sb.toNat).take 4 = bs at hx ⊢
      generalize h4 : 4 = m at hx
      cases hx with
      | plain _ _ _ h3 => exact absurd h3 hnat
      | bool => rw [show underscored c!"BOOLEAN" = c!"BOOLEAN" from rfl] at hvax; cases hvax
      | ebcdic h3 _ =>
        rw [hvax] at h3
        exact absurd h3 (by decide)
      | ibmShort h3 => rw [hvax] at h3; cases h3
      | ibmLong => cases h4
      | vax _ _ h1 h2 => rw [hv _ _ h1 h2]
    simp only [Shows, List.map_map]
    exact (forall_map (fun r v hx => hall r v hx) h).symm

theorem not_native {t : Str} (h : underscored t = c!"IBM_REAL" ∨ underscored t = c!"VAX_REAL") : ¬ Native t := by
  intro hn
  refine hn ?_
  rw [← prefix_underscored c!"IBM" _ (by decide), ← prefix_underscored c!"VAX" _ (by decide), ← infix_underscored c!"REAL" _ (by decide)]
  rcases h with h | h <;> rw [h] <;> decide

/-- a column of a table holds the values whose bytes it is read from -/
theorem native_shows (src : Source) (recs : List Bytes) (c : TCol) (n : Nat) (vs : List Value)
    (hcov : Native c.fld.attrs.dataType) (hm : Means (underscored c.fld.attrs.dataType) n c.dt)
    (h : List.Forall₂ (fun r v => Encodes src.cp500 c.fld.attrs.dataType n ((r.drop c.sb.toNat).take c.dt.size) v) recs vs) :
    ∃ col, columnOf src recs c = .ok col ∧ Shows col vs := by
  obtain ⟨f, sb, d⟩ := c
  simp only at hcov hm h
  unfold columnOf
  simp only
  have hn1 : ¬ (startsWith f.attrs.dataType c!"IBM" && contains f.attrs.dataType c!"REAL") = true := by
    rw [Bool.and_eq_true, contains_iff]
    intro hh
    exact hcov ⟨Or.inl (List.isPrefixOf_iff_prefix.1 hh.1), hh.2⟩
  have hn2 : ¬ (startsWith f.attrs.dataType c!"VAX" && contains f.attrs.dataType c!"REAL") = true := by
    rw [Bool.and_eq_true, contains_iff]
    intro hh
    exact hcov ⟨Or.inr (List.isPrefixOf_iff_prefix.1 hh.1), hh.2⟩
  rw [if_neg hn1, if_neg hn2]
  refine ⟨_, rfl, ?_⟩
  have hsh := decodeAll_shows d (recs.map (fun r => (r.drop sb.toNat).take d.size))
  rw [List.map_map] at hsh
  generalize f.attrs.dataType = t at *
  by_cases hb : t = c!"BOOLEAN"
  · subst hb
    rw [if_pos rfl, if_neg (by decide)]
    have hk : d.kind = .int ∨ d.kind = .uint := by
      have : underscored c!"BOOLEAN" = c!"BOOLEAN" := by decide
      rw [this] at hm
      generalize ht : c!"BOOLEAN" = t at hm
      cases hm with
      | integer _ _ _ hk _ => exact hk
      | bigReal ht' => subst ht; exact absurd ht' (by decide)
      | littleReal => cases ht
      | text ht' => subst ht; exact absurd ht' (by decide)
      | raw ht' => subst ht; exact absurd ht' (by decide)
      | vax => cases ht
      | ibm => cases ht
    have hv : ∀ bs v, Encodes src.cp500 c!"BOOLEAN" n bs v → ∃ k, oneVal d bs = .int k ∧ v = .bool (decide (k ≠ 0)) := by
      intro bs v he
      generalize ht : c!"BOOLEAN" = t at he hm
      cases he with
      | plain _ h1 => exact absurd ht.symm h1
      | bool hd hs =>
        have := means_unique (t := c!"BOOLEAN") hm hd
        subst this
        exact ⟨_, stored_val hs, rfl⟩
      | ebcdic h1 => subst ht; exact absurd h1 (by decide)
      | ibmShort h1 => subst ht; exact absurd h1 (by decide)
      | ibmLong h1 => subst ht; exact absurd h1 (by decide)
      | vax h1 => subst ht; exact absurd h1 (by decide)
    let conv : Value → Value := fun v => match v with | .int k => .bool (decide (k ≠ 0)) | v => v
    have hvs : (recs.map (oneVal d ∘ fun r => (r.drop sb.toNat).take d.size)).map conv = vs := by
      rw [List.map_map]
      refine forall_map ?_ h
      intro r v he
      obtain ⟨k, h1, rfl⟩ := hv _ _ he
      simp only [Function.comp_apply, h1, conv]
    have hints : ∃ ty ws, decodeAll d (recs.map (fun r => (r.drop sb.toNat).take d.size)) = .ints ty ws := by
      unfold decodeAll
      rcases hk with hk | hk <;> rw [hk] <;> exact ⟨_, _, rfl⟩
    obtain ⟨ty, ws, hw⟩ := hints
    rw [hw] at hsh ⊢
    simp only [Shows] at hsh ⊢
    rw [← hvs, hsh, List.map_map, List.map_map]
    rfl
  · rw [if_neg hb]
    by_cases he : contains t c!"EBCDIC" = true
    · rw [if_pos he]
      cases h with
      | nil =>
        rw [List.map_nil] at hsh
        rw [List.map_nil] at hsh ⊢
        generalize decodeAll d [] = col at hsh ⊢
        cases col <;> simp_all [Shows]
      | @cons r v recs vs h1 h2 =>
        have heb : ∀ bs v, Encodes src.cp500 t n bs v →
            underscored t ∈ [c!"EBCDIC", c!"EBCDIC_CHARACTER"] ∧ v = .text (bs.map src.cp500) := by
          intro bs v hx
          cases hx with
          | plain _ _ h3 => exact absurd ((contains_iff _ _).1 he) h3
          | bool => exact absurd rfl hb
          | ebcdic h3 _ => exact ⟨h3, rfl⟩
          | ibmShort h3 => exact absurd hcov (not_native (Or.inl h3))
          | ibmLong h3 => exact absurd hcov (not_native (Or.inl h3))
          | vax h3 => exact absurd hcov (not_native (Or.inr h3))
        have hd : d = ⟨none, .void, n⟩ := by
          refine means_unique hm (.raw ?_)
          have := (heb _ _ h1).1
          simp only [List.mem_cons, List.not_mem_nil, or_false] at this ⊢
          rcases this with h | h <;> simp [h]
        subst hd
        have hvs := forall_map (f := fun r : Bytes => Value.text (((r.drop sb.toNat).take n).map src.cp500))
          (fun r v hx => (heb _ _ hx).2.symm) (List.Forall₂.cons h1 h2)
        simp only [decodeAll, Shows]
        rw [← hvs, List.map_map, List.map_map]
        rfl
    · rw [if_neg he]
      have hvs : recs.map (oneVal d ∘ fun r => (r.drop sb.toNat).take d.size) = vs := by
        refine forall_map ?_ h
        intro r v hx
        cases hx with
        | plain hd _ _ _ hs =>
          rw [means_unique hm hd]
          exact stored_val (by rw [means_unique hm hd] at hs; exact hs)
        | bool => exact absurd rfl hb
        | ebcdic h3 _ =>
          refine absurd ((contains_iff _ _).2 ?_) he
          rw [← infix_underscored _ _ (by decide)]
          simp only [List.mem_cons, List.not_mem_nil, or_false] at h3
          rcases h3 with h | h
          · rw [h]
          · rw [h]; exact ⟨[], c!"_CHARACTER", rfl⟩
        | ibmShort h3 => exact absurd hcov (not_native (Or.inl h3))
        | ibmLong h3 => exact absurd hcov (not_native (Or.inl h3))
        | vax h3 => exact absurd hcov (not_native (Or.inr h3))
      rw [← hvs]
      exact hsh

theorem columnOf_shows (src : Source) (hv : ReadsVax src.vax32) (recs : List Bytes) (c : TCol) (n : Nat) (vs : List Value)
    (hnat : Native c.fld.attrs.dataType ∨ c.fld.bytes = n ∧ recs ≠ []) (hm : Means (underscored c.fld.attrs.dataType) n c.dt)
    (h : List.Forall₂ (fun r v => Encodes src.cp500 c.fld.attrs.dataType n ((r.drop c.sb.toNat).take c.dt.size) v) recs vs) :
    ∃ col, columnOf src recs c = .ok col ∧ Shows col vs := by
  by_cases hn : Native c.fld.attrs.dataType
  · exact native_shows src recs c n vs hn hm h
  · rcases hnat with h' | ⟨h1, h2⟩
    · exact absurd h' hn
    · obtain ⟨w, col, h3, h4⟩ := foreign_shows src hv recs c n vs hn h1 h2 hm h
      exact ⟨_, h3, h4⟩

/-! ### records -/

theorem records_length (L n : Nat) (bs : Bytes) : (records L n bs).length = n := by
  induction n generalizing bs with
  | zero => rfl
  | succ n ih => rw [records, List.length_cons, ih]

theorem records_eq (L n : Nat) (bs : Bytes) :
    records L n bs = (List.range n).map (fun i => (bs.drop (i * L)).take L) := by
  induction n generalizing bs with
  | zero => rfl
  | succ n ih =>
    rw [records, ih, List.range_succ_eq_map, List.map_cons, List.map_map, Nat.zero_mul, List.drop_zero]
    congr 1
    refine List.map_congr_left ?_
    intro i _
    simp only [Function.comp_apply, List.drop_drop, Nat.succ_mul]
    rw [Nat.add_comm]

/-- whole records are read where they are -/
theorem readRecords_eq (compressed : Bool) (file : Bytes) (start L R : Nat) (hL : 0 < L) (h : start + R * L ≤ file.length) :
    readRecords compressed file start L R = .ok ((List.range R).map (fun r => bytesAt file (start + r * L) L)) := by
  unfold readRecords
  rw [if_neg (by omega)]
  have hlen : ((file.drop start).take (R * L)).length = R * L := by
    rw [List.length_take, List.length_drop]; omega
  cases compressed with
  | true =>
    simp only [if_true, hlen]
    rw [if_neg (by simp), Nat.mul_div_cancel _ hL, records_eq]
    congr 1
    refine List.map_congr_left ?_
    intro r hr
    have hr := List.mem_range.1 hr
    have : (r + 1) * L ≤ R * L := Nat.mul_le_mul_right L hr
    rw [Nat.add_mul] at this
    simp only [bytesAt]
    rw [List.drop_take, List.take_take, List.drop_drop]
    congr 1
    omega
  | false =>
    simp only [Bool.false_eq_true, if_false]
    have hmin : min R ((file.drop start).length / L) = R := by
      rw [List.length_drop]
      apply Nat.min_eq_left
      rw [Nat.le_div_iff_mul_le hL]
      omega
    rw [hmin, records_eq]
    congr 1
    refine List.map_congr_left ?_
    intro r _
    simp only [bytesAt, List.drop_drop]

/-- the bytes of a value within its record -/
theorem bytesAt_within (file : Bytes) (i L o n : Nat) (h : o + n ≤ L) :
    ((bytesAt file i L).drop o).take n = bytesAt file (i + o) n := by
  unfold bytesAt
  rw [List.drop_take, List.take_take, List.drop_drop]
  congr 1
  omega

end Verif.Table
