import Verif.Spec.Pds4Scale
import Mathlib.Tactic.Ring
import Mathlib.Tactic.Linarith
import Mathlib.Tactic.NormNum

/-!
C15 and the limit C55: scaling of PDS4 integer data.
-/

namespace Verif.NumPy

theorem all_cases {t : IntType} (h : t ∈ IntType.all) : t = int8 ∨ t = int16 ∨ t = int32 ∨ t = int64 ∨
    t = uint8 ∨ t = uint16 ∨ t = uint32 ∨ t = uint64 := by
  simpa [IntType.all] using h

theorem bits_pos {t : IntType} (h : t ∈ IntType.all) : 1 ≤ t.bits := by
  rcases all_cases h with rfl | rfl | rfl | rfl | rfl | rfl | rfl | rfl <;> decide

theorem hi_lo (t : IntType) (h : 1 ≤ t.bits) : hi t = lo t + 2 ^ t.bits - 1 := by
  obtain ⟨s, b⟩ := t
  obtain ⟨b, rfl⟩ : ∃ c, b = c + 1 := ⟨b - 1, by simp only at h; omega⟩
  cases s <;> simp only [hi, lo, if_true, Bool.false_eq_true, if_false, Nat.add_sub_cancel, pow_succ]
  · omega
  · generalize (2 : Int) ^ b = M; omega

theorem two_pow_pos (n : Nat) : (0 : Int) < 2 ^ n := by positivity

theorem wrap_id (t : IntType) (h : 1 ≤ t.bits) (x : Int) (h1 : lo t ≤ x) (h2 : x ≤ hi t) : wrap t x = x := by
  rw [hi_lo t h] at h2
  unfold wrap
  rw [Int.emod_eq_of_lt (by omega) (by omega)]
  omega

theorem wrap_congr (t : IntType) (x y : Int) (h : x % 2 ^ t.bits = y % 2 ^ t.bits) : wrap t x = wrap t y := by
  unfold wrap
  rw [Int.sub_emod x, h, ← Int.sub_emod]

theorem wrap_mod (t : IntType) (n : Nat) (hn : n ≤ t.bits) (x : Int) : wrap t x % 2 ^ n = x % 2 ^ n := by
  unfold wrap
  have hd : (2 : Int) ^ n ∣ 2 ^ t.bits := pow_dvd_pow 2 hn
  rw [Int.add_emod, Int.emod_emod_of_dvd _ hd, ← Int.add_emod]
  congr 1
  omega

theorem wrap_range (t : IntType) (h : 1 ≤ t.bits) (x : Int) : lo t ≤ wrap t x ∧ wrap t x ≤ hi t := by
  rw [hi_lo t h]
  unfold wrap
  have h1 := Int.emod_nonneg (x - lo t) (ne_of_gt (two_pow_pos t.bits))
  have h2 := Int.emod_lt_of_pos (x - lo t) (two_pow_pos t.bits)
  omega

/-- in-place operations have no less bits than the array -/
theorem promote_bits (t : IntType) (sd : DType) (p : IntType) (h : promote (some t) sd = .int p) : t.bits ≤ p.bits := by
  cases sd with
  | none => simp [promote] at h
  | some b =>
    simp only [promote] at h
    obtain ⟨ts, tb⟩ := t
    obtain ⟨bs, bb⟩ := b
    split at h
    · simp only [Promoted.int.injEq] at h; subst h; simp only; omega
    · cases ts <;> simp only [if_true, if_false, Bool.false_eq_true] at h <;> split at h
      · simp only [Promoted.int.injEq] at h; subst h; simp only; omega
      · split at h
        · simp only [Promoted.int.injEq] at h; subst h; simp only; omega
        · simp at h
      · simp only [Promoted.int.injEq] at h; subst h; exact le_refl _
      · split at h
        · simp only [Promoted.int.injEq] at h; subst h; simp only; omega
        · simp at h

theorem back_eq (t : IntType) (p : Promoted) (sd : DType) (hp : promote (some t) sd = p) (x : Int)
    (hk : sameKind p (some t) = true) : back p (some t) x = wrap t x := by
  cases p with
  | int q =>
    simp only [back]
    exact wrap_congr t _ _ (wrap_mod q _ (promote_bits t sd q hp) x)
  | float64 => simp [sameKind] at hk
  | object => simp [sameKind] at hk

theorem back_none (sd : DType) (x : Int) : back (promote none sd) none x = x := by
  simp [promote, back]

end Verif.NumPy

namespace Verif.Pds4Scale
open Verif.Py Verif.NumPy Spec

theorem minOf_le (x : Int) (xs : List Int) : ∀ y ∈ x :: xs, minOf x xs ≤ y := by
  induction xs generalizing x with
  | nil => intro y hy; simp only [List.mem_singleton] at hy; rw [hy]; exact le_refl _
  | cons b bs ih =>
    intro y hy
    show bs.foldl min (min x b) ≤ y
    have := ih (min x b)
    simp only [List.mem_cons] at hy this
    have h0 := this (min x b) (.inl rfl)
    rcases hy with rfl | rfl | hy
    · exact le_trans h0 (min_le_left _ _)
    · exact le_trans h0 (min_le_right _ _)
    · exact this y (.inr hy)

theorem maxOf_ge (x : Int) (xs : List Int) : ∀ y ∈ x :: xs, y ≤ maxOf x xs := by
  induction xs generalizing x with
  | nil => intro y hy; simp only [List.mem_singleton] at hy; rw [hy]; exact le_refl _
  | cons b bs ih =>
    intro y hy
    show y ≤ bs.foldl max (max x b)
    have := ih (max x b)
    simp only [List.mem_cons] at hy this
    have h0 := this (max x b) (.inl rfl)
    rcases hy with rfl | rfl | hy
    · exact le_trans (le_max_left _ _) h0
    · exact le_trans (le_max_right _ _) h0
    · exact this y (.inr hy)

theorem minOf_mem (x : Int) (xs : List Int) : minOf x xs ∈ x :: xs := by
  induction xs generalizing x with
  | nil => simp [minOf]
  | cons b bs ih =>
    have := ih (min x b)
    show bs.foldl min (min x b) ∈ _
    simp only [List.mem_cons, minOf] at this ⊢
    rcases this with h | h
    · rcases min_choice x b with h' | h' <;> rw [h'] at h ⊢ <;> simp [h]
    · exact .inr (.inr h)

theorem maxOf_mem (x : Int) (xs : List Int) : maxOf x xs ∈ x :: xs := by
  induction xs generalizing x with
  | nil => simp [maxOf]
  | cons b bs ih =>
    have := ih (max x b)
    show bs.foldl max (max x b) ∈ _
    simp only [List.mem_cons, maxOf] at this ⊢
    rcases this with h | h
    · rcases max_choice x b with h' | h' <;> rw [h'] at h ⊢ <;> simp [h]
    · exact .inr (.inr h)

/-- `t` holds `v`, and if it is signed `-v` too -/
def Good (t : IntType) (v : Int) : Prop := if t.signed then |v| ≤ hi t else 0 ≤ v ∧ v ≤ hi t

theorem Good.holds {t : IntType} (h : t ∈ IntType.all) {v : Int} (hg : Good t v) : lo t ≤ v ∧ v ≤ hi t := by
  unfold Good at hg
  have hb := bits_pos h
  by_cases hs : t.signed
  · rw [if_pos hs] at hg
    have := abs_le.1 hg
    refine ⟨?_, this.2⟩
    have h1 : lo t = -(hi t) - 1 := by simp only [lo, hi, hs, if_true]; ring
    omega
  · rw [if_neg hs] at hg
    exact ⟨by simp only [lo, hs]; simpa using hg.1, hg.2⟩

theorem Good.abs_le {t : IntType} {v : Int} (hg : Good t v) : |v| ≤ hi t := by
  unfold Good at hg
  split at hg
  · exact hg
  · rw [abs_of_nonneg hg.1]; exact hg.2

theorem typeFor_known (d : DType) (a b : Int) (t : IntType) (h : typeFor d a b = some t) : t ∈ IntType.all := by
  unfold typeFor at h
  simp only at h
  repeat' split at h
  all_goals first | (simp only [Option.some.injEq] at h; subst h; decide) | (exact absurd h (by simp))

theorem typeFor_good (a b : Int) (t : IntType) (h : typeFor none a b = some t) (v : Int) (h1 : a ≤ v) (h2 : v ≤ b) : Good t v := by
  have hv : |v| ≤ max (a.natAbs : Int) b.natAbs := by
    rw [_root_.abs_le]; omega
  unfold typeFor at h
  simp only at h
  generalize max (a.natAbs : Int) b.natAbs = M at *
  repeat' split at h
  all_goals first
    | (cases h; done)
    | (simp only [Option.some.injEq] at h; subst h; unfold Good
       first
         | (rw [if_pos (by rfl)]; refine le_trans hv ?_; norm_num [hi, int8, int16, int32, int64]; omega)
         | (rw [if_neg (by decide)]; rw [_root_.abs_le] at hv; norm_num [hi, uint8, uint16, uint32, uint64]; omega))

theorem minIntType_cons (d : DType) (x : Int) (xs : List Int) :
    minIntType d (x :: xs) = .ok (typeFor d (minOf x xs) (maxOf x xs)) := rfl

/-- **C15 (type).** The dtype chosen for a list of integers holds every one of them. -/
theorem C15_type_holds (xs : List Int) (f : DType) (h : minIntType none xs = .ok f) : ∀ x ∈ xs, Holds f x := by
  cases xs with
  | nil => simp [minIntType] at h
  | cons y ys =>
    rw [minIntType_cons] at h
    injection h with h
    intro x hx
    cases f with
    | none => trivial
    | some t => exact (typeFor_good _ _ t h x (minOf_le y ys x hx) (maxOf_ge y ys x hx)).holds (typeFor_known _ _ _ t h)

/-- a type that holds the values with their signs changed chooses like Python integers do -/
theorem typeFor_good_eq (t : IntType) (ht : t ∈ IntType.all) (a b : Int) (ha : Good t a) (hb : Good t b) :
    typeFor (some t) a b = typeFor none a b := by
  have hw : ∀ v : Int, Good t v → wrap t (v.natAbs : Int) = v.natAbs := by
    intro v hv
    apply wrap_id t (bits_pos ht)
    · have : lo t ≤ 0 := by
        unfold lo; split
        · have := two_pow_pos (t.bits - 1); omega
        · exact le_refl _
      omega
    · have := hv.abs_le; rw [Int.abs_eq_natAbs] at this; exact this
  unfold typeFor
  simp only [hw a ha, hw b hb]

theorem linear_between (a b x s o : Int) (h1 : a ≤ x) (h2 : x ≤ b) :
    min (a * s + o) (b * s + o) ≤ x * s + o ∧ x * s + o ≤ max (a * s + o) (b * s + o) := by
  rcases le_total 0 s with hs | hs
  · have e1 : a * s ≤ x * s := mul_le_mul_of_nonneg_right h1 hs
    have e2 : x * s ≤ b * s := mul_le_mul_of_nonneg_right h2 hs
    omega
  · have e1 : x * s ≤ a * s := mul_le_mul_of_nonpos_right h1 hs
    have e2 : b * s ≤ x * s := mul_le_mul_of_nonpos_right h2 hs
    omega

/-- the type chosen for scaling holds every value, before and after -/
theorem scaledType_good (xs : List Int) (s o : Int) (n : IntType) (h : scaledType xs s o = .ok (some n)) :
    n ∈ IntType.all ∧ ∀ x ∈ xs, Good n x ∧ Good n (x * s + o) := by
  cases xs with
  | nil => simp [scaledType] at h
  | cons y ys =>
    simp only [scaledType, minIntType_cons, Except.ok.injEq] at h
    refine ⟨typeFor_known _ _ _ n h, fun x hx => ?_⟩
    have h1 := minOf_le y ys x hx
    have h2 := maxOf_ge y ys x hx
    generalize minOf y ys = a at *
    generalize maxOf y ys = b at *
    obtain ⟨h3, h4⟩ := linear_between a b x s o h1 h2
    have l1 := minOf_le a [b, a * s + o, b * s + o]
    have l2 := maxOf_ge a [b, a * s + o, b * s + o]
    simp only [List.mem_cons, List.not_mem_nil, or_false, forall_eq_or_imp, forall_eq] at l1 l2
    exact ⟨typeFor_good _ _ n h x (by omega) (by omega), typeFor_good _ _ n h _ (by omega) (by omega)⟩

theorem Good.widen {n t : IntType} {v : Int} (hs : t.signed = n.signed) (hb : n.bits ≤ t.bits) (hg : Good n v) : Good t v := by
  have hh : hi n ≤ hi t := by
    unfold hi
    rw [hs]
    split
    · have : (2 : Int) ^ (n.bits - 1) ≤ 2 ^ (t.bits - 1) := pow_le_pow_right₀ (by norm_num) (by omega)
      omega
    · have : (2 : Int) ^ n.bits ≤ 2 ^ t.bits := pow_le_pow_right₀ (by norm_num) hb
      omega
  unfold Good at hg ⊢
  rw [hs]
  cases hn : n.signed <;> simp only [hn, if_true, if_false, Bool.false_eq_true] at hg ⊢
  · exact ⟨hg.1, le_trans hg.2 hh⟩
  · exact le_trans hg hh

/-- the array keeps its values when it gets the wider type -/
theorem adjust_eq (d : DType) (data : List Elem) (s o : Int) (d' : DType) (x : List Elem) (hk : Known d)
    (h : adjust d data s o = .ok (d', x)) :
    x = data ∧ Known d' ∧ ∀ t, d' = some t → ∀ e ∈ data, Good t e.1 ∧ Good t (e.1 * s + o) := by
  unfold adjust at h
  cases hn : scaledType (data.map (·.1)) s o with
  | error => rw [hn] at h; simp [bind, Except.bind] at h
  | ok new =>
    rw [hn] at h
    simp only [bind, Except.bind] at h
    cases d with
    | none =>
      simp only [Except.ok.injEq, Prod.mk.injEq] at h
      obtain ⟨rfl, rfl⟩ := h
      exact ⟨rfl, hk, fun t ht => by cases ht⟩
    | some t =>
      cases new with
      | none =>
        simp only [Except.ok.injEq, Prod.mk.injEq] at h
        obtain ⟨rfl, rfl⟩ := h
        exact ⟨rfl, fun t ht => (by cases ht), fun t ht => by cases ht⟩
      | some n =>
        obtain ⟨hnk, hg⟩ := scaledType_good _ s o n hn
        have hg' : ∀ e ∈ data, Good n e.1 ∧ Good n (e.1 * s + o) := fun e he => hg e.1 (List.mem_map.2 ⟨e, he, rfl⟩)
        simp only at h
        split at h
        · simp only [Except.ok.injEq, Prod.mk.injEq] at h
          obtain ⟨rfl, rfl⟩ := h
          refine ⟨?_, fun t ht => ?_, fun t ht => ?_⟩
          · conv_rhs => rw [← List.map_id data]
            apply List.map_congr_left
            intro e he
            have := (hg' e he).1.holds hnk
            rw [wrap_id n (bits_pos hnk) _ this.1 this.2]; rfl
          · cases ht; exact hnk
          · cases ht; exact hg'
        · rename_i hc
          simp only [Except.ok.injEq, Prod.mk.injEq] at h
          obtain ⟨rfl, rfl⟩ := h
          simp only [ne_eq, not_or, not_not, not_lt] at hc
          refine ⟨rfl, hk, fun u hu e he => ?_⟩
          cases hu
          exact ⟨(hg' e he).1.widen hc.1 hc.2, (hg' e he).2.widen hc.1 hc.2⟩

/-- arithmetic modulo the size of the dtype -/
def wrapD : DType → Int → Int
  | some t, x => wrap t x
  | none, x => x

/-- what an in-place operation does when it succeeds -/
theorem inPlace_eq (op : Int → Int → Int) (d : DType) (s : Int) (x y : List Elem) (h : inPlace op d s x = .ok y) :
    y = x.map fun e => if e.2 then e else (wrapD d (op e.1 s), e.2) := by
  unfold inPlace at h
  rw [minIntType_cons] at h
  simp only [bind, Except.bind] at h
  split at h
  · rename_i hk
    injection h with h
    rw [← h]
    apply List.map_congr_left
    intro e _
    split
    · rfl
    · cases d with
      | none => rw [back_none]; rfl
      | some t => rw [back_eq t _ _ rfl _ hk]; rfl
  · simp at h

/-- casting down changes no value -/
theorem castDown_eq (d : DType) (z : List Elem) (f : DType) (out : List Elem) (hk : Known d)
    (hg : ∀ t, d = some t → ∀ e ∈ z, Good t e.1) (h : castDown d z = .ok (f, out)) :
    out = z ∧ ∀ e ∈ out, Holds f e.1 := by
  unfold castDown at h
  split at h
  · rename_i hc
    simp only [Except.ok.injEq, Prod.mk.injEq] at h
    obtain ⟨rfl, rfl⟩ := h
    refine ⟨rfl, fun e _ => ?_⟩
    rw [hc.1]; trivial
  · cases hm : minIntType d (z.map (·.1)) with
    | error => rw [hm] at h; simp [bind, Except.bind] at h
    | ok g =>
      rw [hm] at h
      simp only [bind, Except.bind, Except.ok.injEq, Prod.mk.injEq] at h
      obtain ⟨rfl, rfl⟩ := h
      have hm' : minIntType none (z.map (·.1)) = .ok g := by
        rw [← hm]
        cases d with
        | none => rfl
        | some t =>
          cases hz : z.map (·.1) with
          | nil => rfl
          | cons y ys =>
            rw [minIntType_cons, minIntType_cons]
            have hgood : ∀ v ∈ y :: ys, Good t v := by
              intro v hv
              rw [← hz] at hv
              obtain ⟨e, he, rfl⟩ := List.mem_map.1 hv
              exact hg t rfl e he
            rw [typeFor_good_eq t (hk t rfl) _ _ (hgood _ (minOf_mem y ys)) (hgood _ (maxOf_mem y ys))]
      have hold := C15_type_holds _ g hm'
      have hcast : cast g z = z := by
        cases g with
        | none => rfl
        | some n =>
          have hn : n ∈ IntType.all := by
            cases hz : z.map (·.1) with
            | nil => rw [hz] at hm'; simp [minIntType] at hm'
            | cons y ys =>
              rw [hz, minIntType_cons] at hm'
              injection hm' with hm'
              exact typeFor_known _ _ _ n hm'
          show z.map _ = z
          conv_rhs => rw [← List.map_id z]
          apply List.map_congr_left
          intro e he
          have := hold e.1 (List.mem_map.2 ⟨e, he, rfl⟩)
          rw [wrap_id n (bits_pos hn) _ this.1 this.2]; rfl
      rw [hcast]
      exact ⟨rfl, fun e he => hold e.1 (List.mem_map.2 ⟨e, he, rfl⟩)⟩

/-- the elements that are not scaled -/
def Kept (specials : Option (List (List Char × Int))) (e : Elem) : Bool :=
  e.2 || (match specials with
    | some l => l.any (fun s => !("valid_".toList.isPrefixOf s.1) && decide (e.1 = s.2))
    | none => false)

theorem kept_iff (specials : Option (List (List Char × Int))) (e : Elem) :
    Kept specials e = true ↔ e.2 = true ∨ IsSpecial specials e.1 := by
  unfold Kept IsSpecial
  rw [Bool.or_eq_true]
  apply or_congr Iff.rfl
  cases specials with
  | none => simp
  | some l =>
    simp only [List.any_eq_true, Bool.and_eq_true, Bool.not_eq_true', decide_eq_true_eq, Option.some.injEq, exists_eq_left',
      Prod.exists, ← Bool.not_eq_true, List.isPrefixOf_iff_prefix]
    constructor
    · rintro ⟨n, v, h1, h2, rfl⟩; exact ⟨n, h1, h2⟩
    · rintro ⟨n, h1, h2⟩; exact ⟨n, _, h1, h2, rfl⟩

/-- the array with its special constants masked -/
def premask (specials : Option (List (List Char × Int))) (data : List Elem) : List Elem :=
  match specials with
  | some s => maskSpecials s data
  | none => data

theorem premask_eq (specials : Option (List (List Char × Int))) (data : List Elem) :
    premask specials data = data.map fun e => (e.1, Kept specials e) := by
  cases specials with
  | none => simp [premask, Kept]
  | some l => rfl

/-- both operations together -/
theorem ops_eq (d : DType) (scale offset : Option Int) (x y z : List Elem)
    (hy : step (scale = none ∨ scale = some 1) (· * ·) d (scale.getD 1) x = Except.ok y)
    (hz : step (offset = none ∨ offset = some 0) (· + ·) d (offset.getD 0) y = Except.ok z)
    (hk : Known d) (hg : ∀ t, d = some t → ∀ e ∈ x, Good t e.1 ∧ Good t (e.1 * scale.getD 1 + offset.getD 0)) :
    z = x.map fun e => (if e.2 then e.1 else e.1 * scale.getD 1 + offset.getD 0, e.2) := by
  have hy' : y = x.map fun e => if e.2 then e else
      (if scale = none ∨ scale = some 1 then e.1 else wrapD d (e.1 * scale.getD 1), e.2) := by
    unfold step at hy
    split at hy
    · rename_i hc
      injection hy with hy
      rw [← hy]
      simp only [if_pos hc]
      conv_lhs => rw [← List.map_id x]
      apply List.map_congr_left
      intro e _
      split
      · rfl
      · rfl
    · rename_i hc
      rw [inPlace_eq _ _ _ _ _ hy]
      apply List.map_congr_left
      intro e _
      rw [if_neg hc]
  have hz' : z = y.map fun e => if e.2 then e else
      (if offset = none ∨ offset = some 0 then e.1 else wrapD d (e.1 + offset.getD 0), e.2) := by
    unfold step at hz
    split at hz
    · rename_i hc
      injection hz with hz
      rw [← hz]
      simp only [if_pos hc]
      conv_lhs => rw [← List.map_id y]
      apply List.map_congr_left
      intro e _
      split
      · rfl
      · rfl
    · rename_i hc
      rw [inPlace_eq _ _ _ _ _ hz]
      apply List.map_congr_left
      intro e _
      rw [if_neg hc]
  rw [hz', hy', List.map_map]
  apply List.map_congr_left
  intro e he
  simp only [Function.comp_apply]
  cases hm : e.2
  · simp only [Bool.false_eq_true, if_false, Prod.mk.injEq, and_true]
    cases d with
    | none =>
      simp only [wrapD]
      split <;> split
      · rename_i h1 h2
        rcases h1 with h1 | h1 <;> rcases h2 with h2 | h2 <;> rw [h1, h2] <;> simp
      · rename_i h1 _
        rcases h1 with h1 | h1 <;> rw [h1] <;> simp
      · rename_i h1
        rcases h1 with h1 | h1 <;> rw [h1] <;> simp
      · rfl
    | some t =>
      have ht := hk t rfl
      obtain ⟨g1, g2⟩ := hg t rfl e he
      have r2 := g2.holds ht
      have hid := wrap_id t (bits_pos ht) _ r2.1 r2.2
      simp only [wrapD]
      split <;> split
      · rename_i h1 h2
        rcases h1 with h1 | h1 <;> rcases h2 with h2 | h2 <;> rw [h1, h2] <;> simp
      · rename_i h1 h2
        rw [← hid]
        rcases h1 with h1 | h1 <;> rw [h1] <;> simp
      · rename_i h1 h2
        rw [← hid]
        rcases h2 with h2 | h2 <;> rw [h2] <;> simp
      · rw [← hid]
        apply wrap_congr
        rw [Int.add_emod, wrap_mod t _ (le_refl _), ← Int.add_emod]
  · simp [hm]
    rw [← hm]

theorem apply_some (d : DType) (data : List Elem) (scale offset : Option Int)
    (specials : Option (List (List Char × Int))) (f : DType) (out : List Elem) (hk : Known d)
    (hns : ¬ ((scale = none ∨ scale = some 1) ∧ (offset = none ∨ offset = some 0)))
    (h : apply d data scale offset specials = .ok (f, out)) :
    ∃ o : List Elem, (o = data.map fun e => (if Kept specials e then e.1 else e.1 * scale.getD 1 + offset.getD 0, Kept specials e)) ∧
      (∀ e ∈ o, Holds f e.1) ∧
      out = if specials.isSome ∧ data.any (·.2) then List.zipWith (fun o e => (o.1, e.2)) o data else o := by
  unfold apply at h
  simp only at h
  rw [if_neg hns] at h
  change (adjust d (premask specials data) _ _ >>= _) = _ at h
  cases ha : adjust d (premask specials data) (scale.getD 1) (offset.getD 0) with
  | error => rw [ha] at h; simp [bind, Except.bind] at h
  | ok q =>
    obtain ⟨d', x⟩ := q
    rw [ha] at h
    simp only [bind, Except.bind] at h
    obtain ⟨hx, hk', hg⟩ := adjust_eq d _ _ _ d' x hk ha
    cases hy : step (scale = none ∨ scale = some 1) (· * ·) d' (scale.getD 1) x with
    | error => rw [hy] at h; simp at h
    | ok y =>
      rw [hy] at h
      simp only at h
      cases hz : step (offset = none ∨ offset = some 0) (· + ·) d' (offset.getD 0) y with
      | error => rw [hz] at h; simp at h
      | ok z =>
        rw [hz] at h
        simp only at h
        have hz' := ops_eq d' scale offset x y z hy hz hk' (by rw [hx]; exact hg)
        cases hc : castDown d' z with
        | error => rw [hc] at h; simp at h
        | ok r =>
          obtain ⟨f', o⟩ := r
          rw [hc] at h
          simp only at h
          have hgz : ∀ t, d' = some t → ∀ e ∈ z, Good t e.1 := by
            intro t ht e he
            rw [hz', hx] at he
            obtain ⟨e', he', rfl⟩ := List.mem_map.1 he
            have := hg t ht e' he'
            simp only
            split
            · exact this.1
            · exact this.2
          obtain ⟨ho, hh⟩ := castDown_eq d' z f' o hk' hgz hc
          refine ⟨o, ?_, ?_, ?_⟩
          · rw [ho, hz', hx, premask_eq, List.map_map]; rfl
          · split at h <;> (simp only [Except.ok.injEq, Prod.mk.injEq] at h; rw [← h.1]; exact hh)
          · split at h
            · rename_i hc; rw [if_pos hc]; simp only [Except.ok.injEq, Prod.mk.injEq] at h; exact h.2.symm
            · rename_i hc; rw [if_neg hc]; simp only [Except.ok.injEq, Prod.mk.injEq] at h; exact h.2.symm

theorem zip_fst (o data : List Elem) (h : o.length = data.length) :
    (List.zipWith (fun (a e : Elem) => (a.1, e.2)) o data).map (·.1) = o.map (·.1) := by
  induction o generalizing data with
  | nil => rfl
  | cons a as ih => cases data with
    | nil => simp at h
    | cons b bs => simp only [List.zipWith_cons_cons, List.map_cons, ih bs (by simpa using h)]

theorem zip_snd (o data : List Elem) (h : o.length = data.length) :
    (List.zipWith (fun (a e : Elem) => (a.1, e.2)) o data).map (·.2) = data.map (·.2) := by
  induction o generalizing data with
  | nil => cases data with
    | nil => rfl
    | cons => simp at h
  | cons a as ih => cases data with
    | nil => simp at h
    | cons b bs => simp only [List.zipWith_cons_cons, List.map_cons, ih bs (by simpa using h)]

/-- **C15.** Whenever scaling PDS4 integers returns, every element that is neither masked nor a special constant
has become exactly its value times the scaling factor plus the offset, the others keep their value, and the
dtype of the result holds them all: nothing wraps around. -/
theorem C15_scaled_exact (d : DType) (data : List Elem) (scale offset : Option Int)
    (specials : Option (List (List Char × Int))) (f : DType) (out : List Elem) (hk : Known d)
    (hd : ∀ e ∈ data, Holds d e.1) (h : apply d data scale offset specials = .ok (f, out)) :
    out.map (·.1) = data.map (scaledValue scale offset specials) ∧ ∀ e ∈ out, Holds f e.1 := by
  by_cases hns : (scale = none ∨ scale = some 1) ∧ (offset = none ∨ offset = some 0)
  · unfold apply at h
    simp only at h
    rw [if_pos hns] at h
    simp only [Except.ok.injEq, Prod.mk.injEq] at h
    obtain ⟨rfl, rfl⟩ := h
    refine ⟨List.map_congr_left fun e _ => ?_, hd⟩
    unfold scaledValue
    split
    · rfl
    · rcases hns.1 with h1 | h1 <;> rcases hns.2 with h2 | h2 <;> rw [h1, h2] <;> simp
  · obtain ⟨o, ho, hh, hout⟩ := apply_some d data scale offset specials f out hk hns h
    have hlen : o.length = data.length := by rw [ho]; simp
    have hval : o.map (·.1) = data.map (scaledValue scale offset specials) := by
      rw [ho, List.map_map]
      apply List.map_congr_left
      intro e _
      simp only [Function.comp_apply]
      unfold scaledValue
      by_cases hke : Kept specials e = true
      · rw [if_pos hke, if_pos ((kept_iff _ _).1 hke)]
      · rw [if_neg hke, if_neg (fun hh => hke ((kept_iff _ _).2 hh))]
    have hfst : out.map (·.1) = o.map (·.1) := by
      rw [hout]
      split
      · exact zip_fst o data hlen
      · rfl
    refine ⟨by rw [hfst, hval], fun e he => ?_⟩
    have : e.1 ∈ o.map (·.1) := by rw [← hfst]; exact List.mem_map.2 ⟨e, he, rfl⟩
    obtain ⟨e', he', heq⟩ := List.mem_map.1 this
    rw [← heq]; exact hh e' he'

/-- **C15 (mask).** If something is scaled, an array that came without masked elements has exactly its special
constants masked; one that came with some (and special constants given) keeps its mask. -/
theorem C15_mask (d : DType) (data : List Elem) (scale offset : Option Int)
    (specials : Option (List (List Char × Int))) (f : DType) (out : List Elem) (hk : Known d)
    (hns : ¬ ((scale = none ∨ scale = some 1) ∧ (offset = none ∨ offset = some 0)))
    (h : apply d data scale offset specials = .ok (f, out)) :
    ((∀ e ∈ data, e.2 = false) → ∀ (i : Nat) (e e' : Elem), data[i]? = some e → out[i]? = some e' →
      (e'.2 = true ↔ IsSpecial specials e.1)) ∧
    ((∃ e ∈ data, e.2 = true) → out.map (·.2) = data.map (·.2)) := by
  obtain ⟨o, ho, hh, hout⟩ := apply_some d data scale offset specials f out hk hns h
  have hlen : o.length = data.length := by rw [ho]; simp
  constructor
  · intro hnone i e e' hi hi'
    have hc : ¬ (specials.isSome = true ∧ data.any (·.2) = true) := by
      rintro ⟨_, ha⟩
      rw [List.any_eq_true] at ha
      obtain ⟨x, hx, hx'⟩ := ha
      rw [hnone x hx] at hx'; cases hx'
    rw [if_neg hc] at hout
    rw [hout, ho, List.getElem?_map, hi] at hi'
    simp only [Option.map_some, Option.some.injEq] at hi'
    rw [← hi']
    simp only
    rw [kept_iff, hnone e (List.mem_of_getElem? hi)]
    simp
  · rintro ⟨e, he, he'⟩
    have ha : data.any (·.2) = true := List.any_eq_true.2 ⟨e, he, he'⟩
    cases specials with
    | none =>
      rw [hout, if_neg (by simp), ho, List.map_map]
      apply List.map_congr_left
      intro x _
      simp [Kept]
    | some l =>
      rw [hout, if_pos ⟨rfl, ha⟩]
      exact zip_snd o data hlen

/-! ### when scaling succeeds -/

theorem scaledType_ok (data : List Int) (hne : data ≠ []) (s o : Int) : ∃ n, scaledType data s o = .ok n := by
  cases data with
  | nil => exact absurd rfl hne
  | cons x xs => exact ⟨_, rfl⟩

/-- the types of small factors and offsets -/
theorem small_type (s : Int) (h : |s| ≤ 127) : typeFor none s s = some int8 := by
  rw [_root_.abs_le] at h
  unfold typeFor
  simp only
  split
  · rfl
  · exfalso; omega

theorem typeFor_signed (a b : Int) (n : IntType) (ha : a < 0) (h : typeFor none a b = some n) : n.signed = true := by
  unfold typeFor at h
  simp only at h
  repeat' split at h
  all_goals first
    | (cases h; done)
    | (exfalso; omega)
    | (simp only [Option.some.injEq] at h; subst h; rfl)

theorem typeFor_small (s : Int) (hs : |s| < 2 ^ 63) : ∃ u, typeFor none s s = some u ∧ (u.signed = true ∨ u.bits < 64) := by
  rw [abs_lt] at hs
  unfold typeFor
  simp only
  repeat' split
  all_goals first
    | (exfalso; omega)
    | exact ⟨_, rfl, .inl rfl⟩
    | exact ⟨_, rfl, .inr (by decide)⟩

/-- an operation on a signed array or an object array succeeds -/
theorem inPlace_ok (op : Int → Int → Int) (d : DType) (hd : ∀ t, d = some t → t.signed = true) (s : Int) (hs : |s| < 2 ^ 63)
    (x : List Elem) : ∃ y, inPlace op d s x = .ok y := by
  obtain ⟨u, hu, hu'⟩ := typeFor_small s hs
  have hk : sameKind (promote d (some u)) d = true := by
    cases d with
    | none => rfl
    | some t =>
      have ht := hd t rfl
      obtain ⟨ts, tb⟩ := t
      obtain ⟨us, ub⟩ := u
      simp only at ht hu'
      subst ht
      unfold promote
      cases us
      · simp only [Bool.false_eq_true, false_or, if_true, if_false, Bool.true_eq_false] at hu' ⊢
        split
        · rfl
        · rfl
      · simp [sameKind]
  unfold inPlace
  rw [minIntType_cons]
  simp only [minOf, maxOf, List.foldl_nil, hu, bind, Except.bind]
  rw [if_pos hk]
  exact ⟨_, rfl⟩

theorem inPlace_length (op : Int → Int → Int) (d : DType) (s : Int) (x y : List Elem) (h : inPlace op d s x = .ok y) :
    y.length = x.length := by
  rw [inPlace_eq op d s x y h]; simp

theorem step_length (skip : Prop) [Decidable skip] (op : Int → Int → Int) (d : DType) (s : Int) (x y : List Elem)
    (h : step skip op d s x = .ok y) : y.length = x.length := by
  unfold step at h
  split at h
  · injection h with h; rw [h]
  · exact inPlace_length op d s x y h

theorem step_ok (skip : Prop) [Decidable skip] (op : Int → Int → Int) (d : DType) (hd : ∀ t, d = some t → t.signed = true)
    (s : Int) (hs : |s| < 2 ^ 63) (x : List Elem) : ∃ y, step skip op d s x = .ok y := by
  unfold step
  split
  · exact ⟨x, rfl⟩
  · exact inPlace_ok op d hd s hs x

theorem castDown_ok (d : DType) (z : List Elem) (hz : z ≠ []) : ∃ r, castDown d z = .ok r := by
  unfold castDown
  split
  · exact ⟨_, rfl⟩
  · cases z with
    | nil => exact absurd rfl hz
    | cons e es =>
      rw [List.map_cons, minIntType_cons]
      exact ⟨_, rfl⟩

/-- **C15 (success).** Integers of any dtype are scaled successfully by every factor and offset below 2^63 in
magnitude, if a value is negative before or after. -/
theorem C15_signed_succeeds (d : DType) (data : List Elem) (scale offset : Option Int)
    (specials : Option (List (List Char × Int)))
    (hneg : ∃ e ∈ data, e.1 < 0 ∨ e.1 * scale.getD 1 + offset.getD 0 < 0)
    (hs : |scale.getD 1| < 2 ^ 63) (ho : |offset.getD 0| < 2 ^ 63) :
    ∃ f out, apply d data scale offset specials = .ok (f, out) := by
  unfold apply
  simp only
  split
  · exact ⟨_, _, rfl⟩
  change ∃ f out, (adjust d (premask specials data) _ _ >>= _) = _
  have hvals : (premask specials data).map (·.1) = data.map (·.1) := by
    rw [premask_eq, List.map_map]; rfl
  have hpne : premask specials data ≠ [] := by
    obtain ⟨e, he, _⟩ := hneg
    intro h
    have := congrArg (List.map (·.1)) h
    rw [hvals] at this
    simp only [List.map_nil, List.map_eq_nil_iff] at this
    rw [this] at he; cases he
  obtain ⟨d', x, ha, hsig, hxne⟩ : ∃ d' x, adjust d (premask specials data) (scale.getD 1) (offset.getD 0) = .ok (d', x) ∧
      (∀ t, d' = some t → t.signed = true ∨ d = none) ∧ x ≠ [] := by
    unfold adjust
    rw [hvals]
    obtain ⟨e, he, hlt⟩ := hneg
    have hmem : e.1 ∈ data.map (·.1) := List.mem_map.2 ⟨e, he, rfl⟩
    obtain ⟨new, hnew⟩ := scaledType_ok (data.map (·.1)) (by intro h; rw [h] at hmem; cases hmem) (scale.getD 1) (offset.getD 0)
    rw [hnew]
    simp only [bind, Except.bind]
    have hsg : ∀ n, new = some n → n.signed = true := by
      rintro n rfl
      cases hl : data.map (·.1) with
      | nil => rw [hl] at hmem; cases hmem
      | cons y ys =>
        rw [hl] at hnew hmem
        simp only [scaledType, minIntType_cons, Except.ok.injEq] at hnew
        refine typeFor_signed _ _ n ?_ hnew
        have h1 := minOf_le y ys e.1 hmem
        have h2 := maxOf_ge y ys e.1 hmem
        generalize minOf y ys = a at *
        generalize maxOf y ys = b at *
        obtain ⟨h3, h4⟩ := linear_between a b e.1 (scale.getD 1) (offset.getD 0) h1 h2
        have l1 := minOf_le a [b, a * scale.getD 1 + offset.getD 0, b * scale.getD 1 + offset.getD 0]
        simp only [List.mem_cons, List.not_mem_nil, or_false, forall_eq_or_imp, forall_eq] at l1
        omega
    cases d with
    | none => exact ⟨none, _, rfl, fun t ht => (by cases ht), hpne⟩
    | some t =>
      cases new with
      | none => exact ⟨none, _, rfl, fun t ht => (by cases ht), hpne⟩
      | some n =>
        simp only
        split
        · exact ⟨some n, _, rfl, fun t ht => (by cases ht; exact .inl (hsg n rfl)), by simpa using hpne⟩
        · rename_i hc
          simp only [ne_eq, not_or, not_not, not_lt] at hc
          exact ⟨some t, _, rfl, fun u hu => (by cases hu; exact .inl (by rw [hc.1]; exact hsg n rfl)), hpne⟩
  have hsig' : ∀ t, d' = some t → t.signed = true := by
    intro t ht
    rcases hsig t ht with h | h
    · exact h
    · subst h
      unfold adjust at ha
      obtain ⟨new, hnew⟩ := scaledType_ok ((premask specials data).map (·.1)) (by simpa using hpne) (scale.getD 1) (offset.getD 0)
      rw [hnew] at ha
      simp only [bind, Except.bind, Except.ok.injEq, Prod.mk.injEq] at ha
      rw [← ha.1] at ht; cases ht
  rw [ha]
  simp only [bind, Except.bind]
  obtain ⟨y, hy⟩ := step_ok (scale = none ∨ scale = some 1) (· * ·) d' hsig' _ hs x
  rw [hy]
  obtain ⟨z, hz⟩ := step_ok (offset = none ∨ offset = some 0) (· + ·) d' hsig' _ ho y
  simp only [hz]
  have hzne : z ≠ [] := by
    intro h
    have := step_length _ _ _ _ _ _ hz
    rw [step_length _ _ _ _ _ _ hy, h] at this
    exact hxne (List.length_eq_zero_iff.1 this.symm)
  obtain ⟨⟨f, o⟩, hr⟩ := castDown_ok d' z hzne
  rw [hr]
  simp only
  split
  · exact ⟨_, _, rfl⟩
  · exact ⟨_, _, rfl⟩

/-! ### the limit: unsigned data -/

theorem typeFor_unsigned (a b : Int) (ha : 0 ≤ a) (hab : a ≤ b) (k : Nat) (hk : k = 8 ∨ k = 16 ∨ k = 32 ∨ k = 64)
    (h1 : 2 ^ (k - 1) ≤ b) (h2 : b < 2 ^ k) : typeFor none a b = some ⟨false, k⟩ := by
  unfold typeFor
  simp only
  rcases hk with rfl | rfl | rfl | rfl <;> norm_num at h1 h2 <;> repeat' split
  all_goals first
    | rfl
    | (exfalso; omega)

/-- **C55 (limit).** Integers that are not negative, before and after scaling, and of which the largest needs all
8, 16, 32 or 64 bits of an unsigned type cannot be scaled by a factor of at most 127 in magnitude, nor have an
offset of at most 127 added: TypeError. -/
theorem C55_unsigned (t : IntType) (data : List Elem) (scale offset : Option Int)
    (specials : Option (List (List Char × Int))) (k : Nat) (hk : k = 8 ∨ k = 16 ∨ k = 32 ∨ k = 64)
    (hpos : ∀ e ∈ data, 0 ≤ e.1 ∧ 0 ≤ e.1 * scale.getD 1 + offset.getD 0)
    (hle : ∀ e ∈ data, e.1 < 2 ^ k ∧ e.1 * scale.getD 1 + offset.getD 0 < 2 ^ k)
    (hbig : ∃ e ∈ data, 2 ^ (k - 1) ≤ e.1 ∨ 2 ^ (k - 1) ≤ e.1 * scale.getD 1 + offset.getD 0)
    (hso : (∃ s, scale = some s ∧ s ≠ 1 ∧ |s| ≤ 127) ∨
      ((scale = none ∨ scale = some 1) ∧ ∃ o, offset = some o ∧ o ≠ 0 ∧ |o| ≤ 127)) :
    apply (some t) data scale offset specials = .error .typeError := by
  have hvals : (premask specials data).map (·.1) = data.map (·.1) := by
    rw [premask_eq, List.map_map]; rfl
  have hnew : scaledType (data.map (·.1)) (scale.getD 1) (offset.getD 0) = .ok (some ⟨false, k⟩) := by
    obtain ⟨e, he, hb⟩ := hbig
    have hmem : e.1 ∈ data.map (·.1) := List.mem_map.2 ⟨e, he, rfl⟩
    have hall : ∀ v ∈ data.map (·.1), (0 ≤ v ∧ 0 ≤ v * scale.getD 1 + offset.getD 0) ∧
        (v < 2 ^ k ∧ v * scale.getD 1 + offset.getD 0 < 2 ^ k) := by
      intro v hv
      obtain ⟨e, he, rfl⟩ := List.mem_map.1 hv
      exact ⟨hpos e he, hle e he⟩
    cases hl : data.map (·.1) with
    | nil => rw [hl] at hmem; cases hmem
    | cons y ys =>
      rw [hl] at hmem hall
      simp only [scaledType, minIntType_cons, Except.ok.injEq]
      have h1 := minOf_le y ys e.1 hmem
      have h2 := maxOf_ge y ys e.1 hmem
      have ha := hall _ (minOf_mem y ys)
      have hb' := hall _ (maxOf_mem y ys)
      generalize minOf y ys = a at *
      generalize maxOf y ys = b at *
      obtain ⟨h3, h4⟩ := linear_between a b e.1 (scale.getD 1) (offset.getD 0) h1 h2
      have l1 := minOf_le a [b, a * scale.getD 1 + offset.getD 0, b * scale.getD 1 + offset.getD 0]
      have l2 := maxOf_ge a [b, a * scale.getD 1 + offset.getD 0, b * scale.getD 1 + offset.getD 0]
      have m1 := minOf_mem a [b, a * scale.getD 1 + offset.getD 0, b * scale.getD 1 + offset.getD 0]
      have m2 := maxOf_mem a [b, a * scale.getD 1 + offset.getD 0, b * scale.getD 1 + offset.getD 0]
      simp only [List.mem_cons, List.not_mem_nil, or_false, forall_eq_or_imp, forall_eq] at l1 l2 m1 m2
      generalize minOf a [b, a * scale.getD 1 + offset.getD 0, b * scale.getD 1 + offset.getD 0] = A at *
      generalize maxOf a [b, a * scale.getD 1 + offset.getD 0, b * scale.getD 1 + offset.getD 0] = B at *
      exact typeFor_unsigned A B (by omega) (by omega) k hk (by omega) (by omega)
  have herr : ∀ (op : Int → Int → Int) (u : IntType) (s : Int) (x : List Elem), u.signed = false → |s| ≤ 127 →
      inPlace op (some u) s x = .error .typeError := by
    intro op u s x hu hs
    unfold inPlace
    rw [minIntType_cons]
    simp only [minOf, maxOf, List.foldl_nil, small_type s hs, bind, Except.bind]
    rw [if_neg]
    obtain ⟨us, ub⟩ := u
    simp only at hu
    subst hu
    unfold promote
    simp only [int8, Bool.false_eq_true, if_false]
    split
    · simp [sameKind]
    · split <;> simp [sameKind]
  have hns : ¬ ((scale = none ∨ scale = some 1) ∧ (offset = none ∨ offset = some 0)) := by
    rintro ⟨h1, h2⟩
    rcases hso with ⟨s, rfl, hs, _⟩ | ⟨_, o, rfl, ho, _⟩
    · rcases h1 with h1 | h1
      · cases h1
      · injection h1 with h1; exact hs h1
    · rcases h2 with h2 | h2
      · cases h2
      · injection h2 with h2; exact ho h2
  obtain ⟨u, x, hu, ha⟩ : ∃ u x, u.signed = false ∧
      adjust (some t) (premask specials data) (scale.getD 1) (offset.getD 0) = .ok (some u, x) := by
    unfold adjust
    rw [hvals, hnew]
    simp only [bind, Except.bind]
    split
    · exact ⟨_, _, rfl, rfl⟩
    · rename_i hc
      simp only [ne_eq, not_or, not_not, not_lt] at hc
      exact ⟨t, _, hc.1, rfl⟩
  unfold apply
  simp only
  rw [if_neg hns]
  change (adjust (some t) (premask specials data) _ _ >>= _) = _
  rw [ha]
  simp only [bind, Except.bind]
  rcases hso with ⟨s, rfl, hs, hs'⟩ | ⟨h1, o, rfl, ho, ho'⟩
  · have : step (some s = none ∨ some s = some 1) (· * ·) (some u) ((some s).getD 1) x = .error .typeError := by
      unfold step
      rw [if_neg (by rintro (h | h); cases h; injection h with h; exact hs h)]
      exact herr _ u s x hu hs'
    rw [this]
  · have h2 : step (scale = none ∨ scale = some 1) (· * ·) (some u) (scale.getD 1) x = .ok x := by
      unfold step
      rw [if_pos h1]
    have h3 : step (some o = none ∨ some o = some 0) (· + ·) (some u) ((some o).getD 0) x = .error .typeError := by
      unfold step
      rw [if_neg (by rintro (h | h); cases h; injection h with h; exact ho h)]
      exact herr _ u o x hu ho'
    rw [h2]
    simp only [h3]

/-- **C55 (limit).** The type chosen for an array of 16-bit integers whose smallest value is -32768 and whose
largest is at most 127 in magnitude is `int8`, which does not hold it (`abs(-32768)` is -32768 in NumPy). -/
theorem C55_most_negative (xs : List Int) (hlo : -32768 ∈ xs) (h : ∀ x ∈ xs, -32768 ≤ x)
    (hmax : ∀ x ∈ xs, x ≤ 127) (hsome : ∃ x ∈ xs, -127 ≤ x) :
    minIntType (some int16) xs = .ok (some int8) ∧ ¬ Holds (some int8) (-32768) := by
  refine ⟨?_, by simp [Holds, lo, hi, int8]⟩
  cases xs with
  | nil => cases hlo
  | cons y ys =>
    rw [minIntType_cons]
    have h1 := minOf_le y ys _ hlo
    have h2 := h _ (minOf_mem y ys)
    have e : minOf y ys = -32768 := by omega
    have h3 := hmax _ (maxOf_mem y ys)
    obtain ⟨x, hx, hx'⟩ := hsome
    have h4 := maxOf_ge y ys x hx
    rw [e]
    generalize maxOf y ys = b at *
    have hb : wrap int16 (b.natAbs : Int) = b.natAbs := by
      apply wrap_id int16 (by decide)
      · have : lo int16 = -32768 := rfl
        omega
      · have : hi int16 = 32767 := rfl
        omega
    have ha : wrap int16 ((-32768 : Int).natAbs : Int) = -32768 := by norm_num [wrap, lo, int16]
    unfold typeFor
    simp only [hb, ha]
    split
    · rfl
    · exfalso; omega

/-! ### examples -/

set_option maxRecDepth 20000 in
/-- bytes doubled and shifted below zero, with a special constant -/
example : apply (some uint8) [(0, false), (200, false), (255, false)] (some 2) (some (-500)) (some [(['m'], 255), (['v', 'a', 'l', 'i', 'd', '_', 'm'], 200)]) =
    .ok (some int16, [(-500, false), (-100, false), (255, true)]) := by
  simp [apply, maskSpecials, adjust, scaledType, minIntType, minOf, maxOf, typeFor, step, inPlace, promote, sameKind, back, castDown, cast, wrap, lo, int8, int16, uint8, bind, Except.bind, List.isPrefixOf]

example : ∃ f out, apply (some uint8) [(0, false), (200, false)] (some 2) (some (-500)) none = .ok (f, out) :=
  C15_signed_succeeds _ _ _ _ _ ⟨(0, false), by simp, .inr (by norm_num)⟩ (by norm_num) (by norm_num)

/-- bytes up to 200 with 5 added -/
example : apply (some uint8) [(0, false), (200, false)] none (some 5) none = .error .typeError :=
  C55_unsigned uint8 _ none (some 5) none 8 (.inl rfl) (by simp) (by simp) ⟨(200, false), by simp⟩
    (.inr ⟨.inl rfl, 5, rfl, by norm_num, by norm_num⟩)

set_option maxRecDepth 20000 in
/-- bytes up to 100 with 5 added: they become signed -/
example : apply (some uint8) [(0, false), (100, false)] none (some 5) none = .ok (some int8, [(5, false), (105, false)]) := rfl

example : minIntType (some int16) [-32768, 100] = .ok (some int8) := rfl

end Verif.Pds4Scale
