/-
C10, C38: PDS3 sample types.
-/
import Verif.Spec.Datatypes
import Mathlib.Tactic.ByContra

namespace Verif.Datatypes
open Verif.Py Verif.Bits Verif.Datatypes.Spec

theorem contains_iff (s sub : Str) : contains s sub = true ↔ sub <:+: s := by
  induction s with
  | nil =>
    rw [contains, List.isEmpty_iff]
    constructor
    · rintro rfl; exact List.infix_refl _
    · intro h; exact List.eq_nil_of_infix_nil h
  | cons c s ih =>
    rw [contains, Bool.or_eq_true, ih, List.isPrefixOf_iff_prefix, List.infix_cons_iff]

theorem decimal_natStr (n : Nat) : decimal (natStr n) = some n := by
  unfold decimal natStr
  rw [if_pos]
  · simp
  · refine ⟨Nat.toDigits_ne_nil, ?_⟩
    rw [List.all_eq_true]
    intro c hc
    exact Nat.isDigit_of_mem_toDigits (by omega) (by omega) hc

theorem npCode_S (n : Nat) : npCode ('S' :: natStr n) = some (.bytes, n) := by
  simp [npCode, decimal_natStr]
theorem npCode_V (n : Nat) : npCode ('V' :: natStr n) = some (.void, n) := by
  simp [npCode, decimal_natStr]
theorem npCode_u (n : Nat) (h : n ∈ [1, 2, 4, 8]) : npCode ('u' :: natStr n) = some (.uint, n) := by
  simp only [npCode, decimal_natStr, Option.bind_some, if_pos h]
theorem npCode_i (n : Nat) (h : n ∈ [1, 2, 4, 8]) : npCode ('i' :: natStr n) = some (.int, n) := by
  simp only [npCode, decimal_natStr, Option.bind_some, if_pos h]

theorem npDtype_order (o : Order) (r : Str) :
    npDtype (orderChar o :: r) = (npCode r).map (fun p => ⟨some o, p.1, p.2⟩) := by
  cases o <;> rfl

theorem npDtype_S (n : Nat) : npDtype ('S' :: natStr n) = some ⟨none, .bytes, n⟩ := by
  simp [npDtype, npCode_S]
theorem npDtype_V (n : Nat) : npDtype ('V' :: natStr n) = some ⟨none, .void, n⟩ := by
  simp [npDtype, npCode_V]
theorem npDtype_bu (n : Nat) (h : n ∈ [1, 2, 4, 8]) : npDtype ('>' :: 'u' :: natStr n) = some ⟨some .big, .uint, n⟩ := by
  simp only [npDtype, npCode_u n h, Option.map_some]
theorem npDtype_lu (n : Nat) (h : n ∈ [1, 2, 4, 8]) : npDtype ('<' :: 'u' :: natStr n) = some ⟨some .little, .uint, n⟩ := by
  simp only [npDtype, npCode_u n h, Option.map_some]

theorem order_iff (t : Str) : determineByteOrder t = .little ↔ LittleName t := by
  unfold determineByteOrder LittleName
  simp only [List.any_cons, List.any_nil, Bool.or_false, startsWith]
  rw [← List.isPrefixOf_iff_prefix, ← List.isPrefixOf_iff_prefix, ← List.isPrefixOf_iff_prefix]
  split
  · rename_i h; simp only [Bool.or_eq_true] at h; simpa using h
  · rename_i h; simp only [Bool.or_eq_true] at h; simpa using h

theorem integer_guard (t : Str) :
    ((contains t c!"INTEGER" || t == c!"BOOLEAN") && !contains t c!"ASCII") = true ↔ IntegerName t := by
  unfold IntegerName
  rw [Bool.and_eq_true, Bool.or_eq_true, contains_iff, beq_iff_eq, Bool.not_eq_true', ← contains_iff t c!"ASCII"]
  simp

/-- the dtype of an integer column of `n` bytes for numpy -/
theorem integerCode_dtype (o : Order) (signed : Bool) (n : Nat) :
    npDtype (integerCode o signed n true) =
      some ⟨some o, if signed then .int else .uint, if n ∈ [1, 2, 4, 8] then n else 1⟩ := by
  unfold integerCode
  by_cases h48 : n = 4 ∨ n = 8
  · have hm : n ∈ [1, 2, 4, 8] := by rcases h48 with rfl | rfl <;> simp
    simp only [h48, and_self, if_true, npDtype_order, if_pos hm]
    cases signed <;> simp [npCode_i n hm, npCode_u n hm]
  · have h4 : n ≠ 4 := fun h => h48 (.inl h)
    have h8 : n ≠ 8 := fun h => h48 (.inr h)
    simp only [if_false, npDtype_order, h4]
    by_cases h2 : n = 2
    · subst h2; cases signed <;> simp [upper, upperC, npCode]
    · have : (if n ∈ [1, 2, 4, 8] then n else 1) = 1 := by
        by_cases h1 : n = 1 <;> simp [h1, h2, h4, h8]
      rw [this]
      cases signed <;> simp [h2, h8, upper, upperC, npCode]

/-- **C10 (accepted types).** Every PDS3 type name and width with a meaning is accepted, and the numpy
type chosen has exactly that width, byte order, signedness and kind. -/
theorem C10_types_mean_what_they_say (sampleType : Str) (n : Nat) (d : Dtype)
    (h : Means (underscored sampleType) n d) :
    ∃ s, sampleTypes sampleType n true = .ok s ∧ npDtype s = some d ∧ d.size = n := by
  unfold sampleTypes
  generalize underscored sampleType = t at h
  cases h with
  | integer hn hw ho hk hu =>
    rename_i o k
    simp only
    rw [if_pos ((integer_guard t).2 hn)]
    refine ⟨integerCode (determineByteOrder t) (!contains t c!"UNSIGNED") n true, rfl, ?_, trivial⟩
    rw [integerCode_dtype, if_pos hw]
    have h1 : determineByteOrder t = o := by
      have := order_iff t
      cases o with
      | little => exact this.2 (ho.1 rfl)
      | big =>
        cases hd : determineByteOrder t with
        | big => rfl
        | little => exact absurd (ho.2 (this.1 hd)) (by decide)
    have h2 : (if (!contains t c!"UNSIGNED") = true then Kind.int else Kind.uint) = k := by
      rw [← contains_iff] at hu
      cases hc : contains t c!"UNSIGNED" with
      | true => simp [hu.2 hc]
      | false =>
        rcases hk with rfl | rfl
        · rfl
        · exact absurd (hu.1 rfl) (by simp [hc])
    rw [h1, h2]
  | bigReal ht hn =>
    simp only [List.mem_cons, List.not_mem_nil, or_false] at ht hn
    rcases ht with rfl | rfl | rfl | rfl | rfl <;> rcases hn with rfl | rfl <;> exact ⟨_, rfl, rfl, rfl⟩
  | littleReal hn =>
    simp only [List.mem_cons, List.not_mem_nil, or_false] at hn
    rcases hn with rfl | rfl <;> exact ⟨_, rfl, rfl, rfl⟩
  | text ht =>
    simp only [List.mem_cons, List.not_mem_nil, or_false] at ht
    have hs := npDtype_S n
    refine ⟨'S' :: natStr n, ?_, hs, rfl⟩
    rcases ht with rfl | rfl | rfl | rfl | rfl
    all_goals
      simp (decide := true) only [contains, typeTable, List.lookup]
      by_cases h8 : n = 8
      · simp [h8]
      · by_cases h4 : n = 4 <;> simp [h8, h4]
  | raw ht =>
    simp only [List.mem_cons, List.not_mem_nil, or_false] at ht
    have hs := npDtype_V n
    refine ⟨'V' :: natStr n, ?_, hs, rfl⟩
    rcases ht with rfl | rfl | rfl | rfl | rfl | rfl | rfl
    all_goals
      simp (decide := true) only [contains, typeTable, List.lookup]
      by_cases h8 : n = 8
      · simp [h8]
      · by_cases h4 : n = 4 <;> simp [h8, h4]
  | vax => exact ⟨_, rfl, npDtype_lu 4 (by decide), rfl⟩
  | ibm hn =>
    simp only [List.mem_cons, List.not_mem_nil, or_false] at hn
    rcases hn with rfl | rfl
    · exact ⟨_, rfl, npDtype_bu 4 (by decide), rfl⟩
    · exact ⟨_, rfl, npDtype_bu 8 (by decide), rfl⟩

/-- the float code chosen before the table lookup, when it is chosen -/
theorem float_choice {t : Str} {n : Nat} {flt : Str}
    (h : (if n = 8 then (.ok ['d'] : Except PyErr Str) else if n = 4 then .ok ['f']
      else if contains t c!"ASCII" = true then .ok []
      else if (contains t c!"REAL" || contains t c!"FLOAT") = true then .error .notImplemented
      else .ok []) = .ok flt) :
    (n = 8 ∧ flt = ['d']) ∨ (n = 4 ∧ flt = ['f']) ∨
      (n ≠ 8 ∧ n ≠ 4 ∧ flt = [] ∧ (contains t c!"ASCII" = true ∨
        contains t c!"REAL" = false ∧ contains t c!"FLOAT" = false)) := by
  split at h
  · cases h; exact .inl ⟨by assumption, rfl⟩
  · split at h
    · cases h; exact .inr (.inl ⟨by assumption, rfl⟩)
    · split at h
      · cases h; exact .inr (.inr ⟨by assumption, by assumption, rfl, .inl (by assumption)⟩)
      · split at h
        · cases h
        · cases h
          rename_i h1
          simp only [Bool.or_eq_true, not_or, Bool.not_eq_true] at h1
          exact .inr (.inr ⟨by assumption, by assumption, rfl, .inr h1⟩)

/-- **C10 (nothing else is accepted).** Whatever is accepted for numpy has a meaning, and the element
type chosen is that meaning, in particular exactly as wide as the label says. The one exception is
integer types whose width is not 1, 2, 4 or 8 (C38). -/
theorem C10_accepted_only_if_meaningful (sampleType : Str) (n : Nat) (s : Str)
    (hok : sampleTypes sampleType n true = .ok s) :
    (∃ d, Means (underscored sampleType) n d ∧ npDtype s = some d ∧ d.size = n) ∨
    (IntegerName (underscored sampleType) ∧ n ∉ [1, 2, 4, 8]) := by
  by_cases hint : IntegerName (underscored sampleType)
  · by_cases hn : n ∈ [1, 2, 4, 8]
    · left
      have hm : Means (underscored sampleType) n
          ⟨some (determineByteOrder (underscored sampleType)),
           if contains (underscored sampleType) c!"UNSIGNED" then .uint else .int, n⟩ := by
        refine .integer hint hn (order_iff _) ?_ ?_
        · split <;> simp
        · rw [← contains_iff]; split <;> simp_all
      obtain ⟨s', hs', hd, hsz⟩ := C10_types_mean_what_they_say _ _ _ hm
      rw [hok] at hs'
      cases hs'
      exact ⟨_, hm, hd, hsz⟩
    · exact .inr ⟨hint, hn⟩
  · left
    have key : ∃ d, Means (underscored sampleType) n d := by
      unfold sampleTypes at hok
      simp only at hok
      rw [if_neg (fun hc => hint ((integer_guard _).1 hc))] at hok
      generalize underscored sampleType = t at hok
      split at hok
      · cases hok
      rename_i flt hflt
      have hf := float_choice hflt
      split at hok
      · cases hok
      rename_i hvax
      split at hok
      · rename_i s' hl
        have hw : ∀ name ∈ [c!"IEEE_REAL", c!"PC_REAL", c!"FLOAT", c!"REAL", c!"MAC_REAL", c!"SUN_REAL", c!"VAX_REAL", c!"IBM_REAL"],
            t = name → n ∈ [4, 8] := by
          intro name hname ht
          subst ht
          rcases hf with ⟨rfl, _⟩ | ⟨rfl, _⟩ | ⟨_, _, _, h3⟩
          · simp
          · simp
          · exfalso
            simp only [List.mem_cons, List.not_mem_nil, or_false] at hname
            rcases hname with rfl | rfl | rfl | rfl | rfl | rfl | rfl | rfl <;> revert h3 <;> decide
        have hmem : t ∈ (typeTable flt (if true = true then 'V' else 's') n).map (·.1) := by
          have : ∀ (l : List (Str × Str)), l.lookup t = some s' → t ∈ l.map (·.1) := by
            intro l
            induction l with
            | nil => intro h; cases h
            | cons p l ih =>
              obtain ⟨a, b⟩ := p
              intro h
              rw [List.lookup_cons] at h
              split at h
              · rename_i he
                rw [beq_iff_eq] at he
                simp [he]
              · simp [ih h]
          exact this _ hl
        simp only [typeTable, List.map_cons, List.map_nil, List.mem_cons, List.not_mem_nil, or_false] at hmem
        rcases hmem with h | h | h | h | h | h | h | h | h | h | h | h | h | h | h | h | h | h | h | h
        · exact ⟨_, .bigReal (by simp [h]) (hw _ (by simp) h)⟩
        · have := hw _ (by simp) h; subst h; exact ⟨_, .littleReal this⟩
        · exact ⟨_, .bigReal (by simp [h]) (hw _ (by simp) h)⟩
        · exact ⟨_, .bigReal (by simp [h]) (hw _ (by simp) h)⟩
        · exact ⟨_, .bigReal (by simp [h]) (hw _ (by simp) h)⟩
        · exact ⟨_, .bigReal (by simp [h]) (hw _ (by simp) h)⟩
        · exact ⟨_, .raw (by simp [h])⟩
        · exact ⟨_, .raw (by simp [h])⟩
        · exact ⟨_, .text (by simp [h])⟩
        · exact ⟨_, .text (by simp [h])⟩
        · exact ⟨_, .text (by simp [h])⟩
        · exact ⟨_, .text (by simp [h])⟩
        · exact ⟨_, .text (by simp [h])⟩
        · exact ⟨_, .raw (by simp [h])⟩
        · exact ⟨_, .raw (by simp [h])⟩
        · exact ⟨_, .raw (by simp [h])⟩
        · have hn : n = 4 := by
            by_contra hne
            exact hvax ⟨h, hne⟩
          subst h; subst hn
          exact ⟨_, .vax⟩
        · have := hw _ (by simp) h; subst h; exact ⟨_, .ibm this⟩
        · exact ⟨_, .raw (by simp [h])⟩
        · exact ⟨_, .raw (by simp [h])⟩
      · cases hok
    obtain ⟨d, hd⟩ := key
    obtain ⟨s', hs', hd', hsz⟩ := C10_types_mean_what_they_say _ _ _ hd
    rw [hok] at hs'
    cases hs'
    exact ⟨d, hd, hd', hsz⟩

example : Means (underscored c!"LSB UNSIGNED INTEGER") 4 ⟨some .little, .uint, 4⟩ ∧
    sampleTypes c!"LSB UNSIGNED INTEGER" 4 true = .ok c!"<u4" := by
  refine ⟨.integer ?_ (by simp) ?_ (.inr rfl) ?_, rfl⟩
  · exact (integer_guard _).1 rfl
  · exact ⟨fun _ => .inr (.inl ⟨c!"_UNSIGNED_INTEGER", rfl⟩), fun _ => rfl⟩
  · exact ⟨fun _ => (contains_iff _ _).1 rfl, fun _ => rfl⟩

/-- **C38 (odd integer widths).** An integer type of any width other than 1, 2, 4 or 8 is accepted
silently, and one byte per element is read instead of `n`. -/
theorem C38_odd_integer_widths_read_one_byte (sampleType : Str) (n : Nat)
    (ht : IntegerName (underscored sampleType)) (hn : n ∉ [1, 2, 4, 8]) :
    ∃ s d, sampleTypes sampleType n true = .ok s ∧ npDtype s = some d ∧ d.size = 1 := by
  refine ⟨_, _, ?_, integerCode_dtype (determineByteOrder (underscored sampleType))
    (!contains (underscored sampleType) c!"UNSIGNED") n, ?_⟩
  · unfold sampleTypes
    simp only
    rw [if_pos ((integer_guard _).2 ht)]
  · simp only
    rw [if_neg hn]

/-- **C38 (qubes).** QUBE loading asks for the `struct` spelling and hands it to numpy: there 4-byte
integers are read with 8 bytes per element, and 8-byte integers with one. -/
theorem C38_qube_integers_have_wrong_width (sampleType : Str) (ht : IntegerName (underscored sampleType)) :
    (∃ s d, sampleTypes sampleType 4 false = .ok s ∧ npDtype s = some d ∧ d.size = 8) ∧
    (∃ s d, sampleTypes sampleType 8 false = .ok s ∧ npDtype s = some d ∧ d.size = 1) := by
  have hst : ∀ n, sampleTypes sampleType n false = .ok (integerCode
      (determineByteOrder (underscored sampleType)) (!contains (underscored sampleType) c!"UNSIGNED") n false) := by
    intro n
    unfold sampleTypes
    simp only
    rw [if_pos ((integer_guard _).2 ht)]
  constructor
  · refine ⟨_, ⟨some (determineByteOrder (underscored sampleType)),
      if contains (underscored sampleType) c!"UNSIGNED" then .uint else .int, 8⟩, hst 4, ?_, rfl⟩
    unfold integerCode
    cases contains (underscored sampleType) c!"UNSIGNED" <;> simp [npDtype_order, upper, upperC, npCode]
  · refine ⟨_, ⟨some (determineByteOrder (underscored sampleType)),
      if contains (underscored sampleType) c!"UNSIGNED" then .uint else .int, 1⟩, hst 8, ?_, rfl⟩
    unfold integerCode
    cases contains (underscored sampleType) c!"UNSIGNED" <;> simp [npDtype_order, upper, upperC, npCode]

example : IntegerName (underscored c!"MSB_INTEGER") ∧ (3 : Nat) ∉ [1, 2, 4, 8] :=
  ⟨(integer_guard _).1 rfl, by decide⟩

end Verif.Datatypes
