/-
C70, C71: PDS4 arrays.
-/
import Verif.Spec.Pds4Array
import Verif.Props.ImageFile

namespace Verif.Pds4Array
open Verif.Py Verif.Bits Verif.Datatypes Verif.Image Verif.Table Verif.Table.Spec Verif.ImageFile Verif.ImageFile.Spec
  Verif.Pds4Array.Spec

/-! ### the label -/

theorem insert_lex {α : Type} (f : α → Nat) (l : List α) (ks : List Nat) (hp : (l.map f).Perm ks) (hs : ks.Pairwise (· < ·)) :
    (l.insertionSort (fun a b => f a ≤ f b)).map f = ks := by
  have hperm : ((l.insertionSort (fun a b => f a ≤ f b)).map f).Perm ks :=
    ((List.perm_insertionSort (fun a b => f a ≤ f b) l).map f).trans hp
  have hsort : ((l.insertionSort (fun a b => f a ≤ f b)).map f).Pairwise (· ≤ ·) := by
    rw [List.pairwise_map]
    haveI : IsTrans α (fun a b => f a ≤ f b) := ⟨fun a b c h1 h2 => Nat.le_trans h1 h2⟩
    haveI : Std.Total (fun a b : α => f a ≤ f b) := ⟨fun a b => Nat.le_total _ _⟩
    exact List.pairwise_insertionSort (fun a b => f a ≤ f b) l
  exact hperm.eq_of_pairwise' hsort (hs.imp (fun h => Nat.le_of_lt h))

/-- a list of pairs with different first parts is determined by its members and the order of the first parts -/
theorem zip_of_mem (xs : List (Nat × Nat)) (ks vs : List Nat) (hl : ks.length = vs.length) (hn : ks.Nodup)
    (hk : xs.map (·.1) = ks) (hm : ∀ p ∈ xs, p ∈ ks.zip vs) : xs.map (·.2) = vs := by
  induction ks generalizing xs vs with
  | nil =>
    cases vs with
    | nil => cases xs with
      | nil => rfl
      | cons => cases hk
    | cons => cases hl
  | cons k ks ih =>
    cases vs with
    | nil => cases hl
    | cons v vs =>
      cases xs with
      | nil => cases hk
      | cons p xs =>
        simp only [List.map_cons, List.cons.injEq] at hk
        obtain ⟨h1, h2⟩ := hk
        have hnk := List.nodup_cons.1 hn
        have hp := hm p (by simp)
        rw [List.zip_cons_cons, List.mem_cons] at hp
        have hpv : p.2 = v := by
          rcases hp with rfl | hp
          · rfl
          · exact absurd (h1 ▸ (List.of_mem_zip (a := p.1) (b := p.2) hp).1) hnk.1
        rw [List.map_cons, hpv]
        congr 1
        refine ih xs vs (by simpa using hl) hnk.2 h2 ?_
        intro q hq
        have hqz := hm q (by simp [hq])
        rw [List.zip_cons_cons, List.mem_cons] at hqz
        rcases hqz with rfl | hqz
        · exact absurd (by rw [← h2]; exact List.mem_map.2 ⟨_, hq, rfl⟩) hnk.1
        · exact hqz

theorem dimensions_eq (l : Label) (shape : List Nat) (h : Shaped l.axes shape) : dimensions l = shape := by
  unfold Shaped at h
  have hks : ((List.range shape.length).map (fun k => k + 1)).Pairwise (· < ·) := by
    rw [List.pairwise_map]
    exact List.pairwise_lt_range.imp (fun h => by omega)
  have h1 := h.map Prod.fst
  rw [List.map_map, List.map_fst_zip (by simp)] at h1
  have hs := insert_lex (fun a : Axis => a.sequenceNumber) l.axes _ h1 hks
  unfold dimensions
  generalize hS : l.axes.insertionSort (fun a b => a.sequenceNumber ≤ b.sequenceNumber) = S at *
  have hz := zip_of_mem (S.map (fun a => (a.sequenceNumber, a.elements))) _ shape (by simp)
    (hks.imp (fun h => Nat.ne_of_lt h)) (by rw [List.map_map]; exact hs) ?_
  · rw [List.map_map] at hz; exact hz
  · intro p hp
    refine h.mem_iff.1 ?_
    obtain ⟨a, ha, rfl⟩ := List.mem_map.1 hp
    refine List.mem_map.2 ⟨a, ?_, rfl⟩
    rw [← hS] at ha
    exact (List.perm_insertionSort _ _).mem_iff.1 ha

/-- equal up to the byte order of single bytes -/
theorem lookup_type {t : Str} {d : Dtype} (h : Pds4Type t d) :
    ∃ d', numericTypes.lookup t = some d' ∧ 0 < d'.size ∧ (d' = d ∨ ∃ o o' k, (k = .int ∨ k = .uint) ∧ d' = ⟨some o, k, 1⟩ ∧ d = ⟨some o', k, 1⟩) := by
  cases h with
  | signed o n hn =>
    simp only [List.mem_cons, List.not_mem_nil, or_false] at hn
    rcases hn with rfl | rfl | rfl <;> cases o <;> exact ⟨_, rfl, by decide, .inl rfl⟩
  | unsigned o n hn =>
    simp only [List.mem_cons, List.not_mem_nil, or_false] at hn
    rcases hn with rfl | rfl | rfl <;> cases o <;> exact ⟨_, rfl, by decide, .inl rfl⟩
  | single o => cases o <;> exact ⟨_, rfl, by decide, .inl rfl⟩
  | double o => cases o <;> exact ⟨_, rfl, by decide, .inl rfl⟩
  | signedByte o => exact ⟨_, rfl, by decide, .inr ⟨.little, o, .int, .inl rfl, rfl, rfl⟩⟩
  | unsignedByte o => exact ⟨_, rfl, by decide, .inr ⟨.little, o, .uint, .inr rfl, rfl, rfl⟩⟩

theorem number_byte (o o' : Order) (bs : Bytes) (h : bs.length = 1) : number o bs = number o' bs := by
  obtain ⟨b, rfl⟩ := List.length_eq_one_iff.1 h
  cases o <;> cases o' <;> rfl

theorem stored_byte {o o' : Order} {k : Kind} (hk : k = .int ∨ k = .uint) {bs : Bytes} {v : Value}
    (h : Stored ⟨some o', k, 1⟩ bs v) : Stored ⟨some o, k, 1⟩ bs v := by
  rcases hk with rfl | rfl
  · cases h with
    | signed h0 h1 h2 h3 h4 => exact .signed h0 h1 (by rw [number_byte o o' bs h1]; exact h2) h3 h4
  · cases h with
    | unsigned h1 h2 => exact .unsigned h1 (by rw [number_byte o o' bs h1]; exact h2)

theorem at_lookup {d d' : Dtype} (h : d' = d ∨ ∃ o o' k, (k = .int ∨ k = .uint) ∧ d' = ⟨some o, k, 1⟩ ∧ d = ⟨some o', k, 1⟩)
    {file : Bytes} {start i : Nat} {v : Value} (ha : At file start d i v) : At file start d' i v := by
  rcases h with rfl | ⟨o, o', k, hk, rfl, rfl⟩
  · exact ha
  · exact stored_byte hk ha

theorem size_lookup {d d' : Dtype} (h : d' = d ∨ ∃ o o' k, (k = .int ∨ k = .uint) ∧ d' = ⟨some o, k, 1⟩ ∧ d = ⟨some o', k, 1⟩) :
    d'.size = d.size ∧ d'.kind = d.kind := by
  rcases h with rfl | ⟨o, o', k, hk, rfl, rfl⟩ <;> exact ⟨rfl, rfl⟩

/-- the elements of the array, one after the other -/
theorem flat_eq (l : Label) (file : Bytes) (shape : List Nat) (d' : Dtype) (hs : Shaped l.axes shape)
    (hl : numericTypes.lookup l.dataType = some d') (h0 : 0 < d'.size) (hen : l.offset + prod shape * d'.size ≤ file.length) :
    flat l file = .ok (d', fileElems file l.offset d' (prod shape)) := by
  unfold flat
  rw [hl, dimensions_eq l shape hs]
  simp only [readRecords_eq _ _ _ _ _ h0 hen, elems_eq, List.map_map]
  rfl

/-- a list of elements becomes an array -/
theorem shaped (l : Label) (shape : List Nat) (hs : Shaped l.axes shape) (hne : shape ≠ []) (data : List Elem)
    (hlen : data.length = prod shape) :
    ∃ A, (if (dimensions l).length > 1 then (Arr.ofList data).reshape (dimensions l) else .ok (Arr.ofList data)) = .ok A ∧
      A.shape = shape ∧ ∀ ix, Within shape ix → A.get ix = data[lastFastest shape ix]? := by
  rw [dimensions_eq l shape hs]
  by_cases h1 : shape.length > 1
  · rw [if_pos h1]
    have hr := reshape_ofList data id shape hlen
    have hid : (Arr.ofList data).map id = Arr.ofList data := by
      unfold Arr.map
      simp
    rw [hid] at hr
    refine ⟨_, hr, rfl, ?_⟩
    intro ix hix
    simp only [Option.map_id, id_eq]
    rw [ravel_last shape ix hix.length_eq]
  · rw [if_neg h1]
    match shape, hne, h1 with
    | [], hne, _ => exact absurd rfl hne
    | _ :: _ :: _, _, h1 => exact absurd (by simp) h1
    | [n], _, _ =>
      refine ⟨_, rfl, by simp [Arr.ofList, hlen, prod], ?_⟩
      intro ix hix
      match ix, hix with
      | [i], .cons hi .nil => simp [Arr.ofList, lastFastest, Verif.Image.Spec.fastestFirst]

/-- **C70 (arrays).** For every Array of any number of axes with any elements, its Axis_Arrays listed in any order, of any
PDS4 data type for integers and reals in binary, at any offset: the array has the shape that the sequence numbers give, and
each element is the value stored at its place, the last index varying fastest. -/
theorem C70_array (old : Bool) (l : Label) (file : Bytes) (shape : List Nat) (d : Dtype) (hs : Shaped l.axes shape)
    (hne : shape ≠ []) (ht : Pds4Type l.dataType d) (hm : l.bitMask = none)
    (hen : l.offset + prod shape * d.size ≤ file.length) :
    ∃ A, readArray old l file = .ok A ∧ A.shape = shape ∧
      ∀ ix v, Within shape ix → At file l.offset d (lastFastest shape ix) v → Has A ix v := by
  obtain ⟨d', h1, h2, h3⟩ := lookup_type ht
  obtain ⟨h4, -⟩ := size_lookup h3
  have hf := flat_eq l file shape d' hs h1 h2 (by rw [h4]; exact hen)
  obtain ⟨A, a1, a2, a3⟩ := shaped l shape hs hne (fileElems file l.offset d' (prod shape)) (fileElems_length ..)
  refine ⟨A, ?_, a2, ?_⟩
  · unfold readArray bitmasked
    rw [hf, hm]
    exact a1
  · intro ix v hix hat
    have hlt : lastFastest shape ix < (fileElems file l.offset d' (prod shape)).length := by
      rw [fileElems_length, ← ravel_last shape ix hix.length_eq]; exact ravel_lt shape ix hix
    refine ⟨_, ?_, fileElems_at (List.getElem?_eq_getElem hlt) (at_lookup h3 hat)⟩
    rw [a3 ix hix]
    exact List.getElem?_eq_getElem hlt

/-! ### bit masks -/

/-- a mask of binary digits -/
theorem digit_cases {mask : Str} (h : ∀ c ∈ mask, c = '0' ∨ c = '1') (b : Nat) (t : Str) (c : Char) (hm : mask = t ++ [c]) :
    Nat.ofDigitChars b mask 0 = b * Nat.ofDigitChars b t 0 + (if c = '1' then 1 else 0) := by
  subst hm
  rw [Nat.ofDigitChars_append, Nat.ofDigitChars_cons, Nat.ofDigitChars_nil]
  rcases h c (by simp) with rfl | rfl <;> rfl

theorem testBit_mask (mask : Str) (h : ∀ c ∈ mask, c = '0' ∨ c = '1') (i : Nat) :
    (Nat.ofDigitChars 2 mask 0).testBit i = true ↔ MaskBit mask i := by
  unfold MaskBit
  induction mask using List.reverseRecOn generalizing i with
  | nil => simp
  | append_singleton t c ih =>
    rw [digit_cases h 2 t c rfl, List.reverse_append, List.reverse_singleton, List.singleton_append]
    have ht : ∀ c ∈ t, c = '0' ∨ c = '1' := fun c hc => h c (by simp [hc])
    cases i with
    | zero =>
      rw [Nat.testBit_zero, List.getElem?_cons_zero]
      rcases h c (by simp) with rfl | rfl
      · simp
      · simp [Nat.add_mod]
    | succ i =>
      rw [Nat.testBit_succ, List.getElem?_cons_succ, ← ih ht i]
      have : (2 * Nat.ofDigitChars 2 t 0 + if c = '1' then 1 else 0) / 2 = Nat.ofDigitChars 2 t 0 := by
        split <;> omega
      rw [this]

theorem mask_lt (mask : Str) (h : ∀ c ∈ mask, c = '0' ∨ c = '1') : Nat.ofDigitChars 2 mask 0 < 2 ^ mask.length := by
  induction mask using List.reverseRecOn with
  | nil => simp
  | append_singleton t c ih =>
    rw [digit_cases h 2 t c rfl, List.length_append, List.length_singleton, Nat.pow_succ]
    have := ih (fun c hc => h c (by simp [hc]))
    split <;> omega

theorem natStr_digits (t : Str) (h : ∀ c ∈ t, c = '0' ∨ c = '1') :
    natStr (Nat.ofDigitChars 10 ('1' :: t) 0) = '1' :: t ∧ 0 < Nat.ofDigitChars 10 ('1' :: t) 0 := by
  induction t using List.reverseRecOn with
  | nil => exact ⟨rfl, by decide⟩
  | append_singleton t c ih =>
    obtain ⟨h1, h2⟩ := ih (fun c hc => h c (by simp [hc]))
    have hd : ∀ x ∈ '1' :: (t ++ [c]), x = '0' ∨ x = '1' := by
      intro x hx
      rcases List.mem_cons.1 hx with rfl | hx
      · exact .inr rfl
      · exact h x hx
    rw [digit_cases hd 10 ('1' :: t) c rfl]
    refine ⟨?_, by omega⟩
    unfold natStr at h1 ⊢
    rw [← Nat.toDigits_append_toDigits (by decide) h2 (by split <;> omega), h1]
    rcases h c (by simp) with rfl | rfl <;> rfl

/-- writing a mask as a decimal number and filling it up with zeros gives it back -/
theorem zfill_mask (mask : Str) (h : ∀ c ∈ mask, c = '0' ∨ c = '1') (h0 : mask ≠ []) :
    zfill mask.length (natStr (Nat.ofDigitChars 10 mask 0)) = mask := by
  induction mask with
  | nil => exact absurd rfl h0
  | cons c t ih =>
    have ht : ∀ c ∈ t, c = '0' ∨ c = '1' := fun c hc => h c (by simp [hc])
    rcases h c (by simp) with rfl | rfl
    · rw [Nat.ofDigitChars_cons]
      by_cases h1 : t = []
      · subst h1; rfl
      · have := ih ht h1
        have hz : (10 * 0 + ('0'.toNat - '0'.toNat)) = 0 := rfl
        rw [hz]
        unfold zfill at this ⊢
        generalize natStr (Nat.ofDigitChars 10 t 0) = s at *
        have hle : s.length ≤ t.length := by
          have := congrArg List.length this
          rw [List.length_append, List.length_replicate] at this
          omega
        rw [List.length_cons, Nat.succ_sub hle, List.replicate_succ, List.cons_append, this]
    · rw [(natStr_digits t ht).1]
      simp [zfill]

theorem mapM_map {α β : Type} (f : α → Except PyErr β) (g : α → β) (l : List α) (h : ∀ a ∈ l, f a = .ok (g a)) :
    l.mapM f = .ok (l.map g) := by
  induction l with
  | nil => rfl
  | cons a l ih =>
    rw [List.mapM_cons, h a (by simp), ih (fun b hb => h b (by simp [hb]))]
    rfl

/-- the word of an element under a mask -/
def maskElem (d : Dtype) (m : Nat) : Elem → Elem
  | .int v => .int (((v % 2 ^ (8 * d.size)).toNat &&& m : Nat) : Int)
  | e => e

theorem masked_and (d : Dtype) (mask : Str) (h : ∀ c ∈ mask, c = '0' ∨ c = '1') (hl : mask.length = 8 * d.size)
    (hmax : d.kind = .int → Nat.ofDigitChars 2 mask 0 < 2 ^ (8 * d.size - 1)) (v : Int) :
    Masked d mask v (((v % 2 ^ (8 * d.size)).toNat &&& Nat.ofDigitChars 2 mask 0 : Nat) : Int) := by
  have hlt : (v % 2 ^ (8 * d.size)).toNat &&& Nat.ofDigitChars 2 mask 0 < 2 ^ (8 * d.size) :=
    Nat.lt_of_le_of_lt Nat.and_le_right (hl ▸ mask_lt mask h)
  have hcast : (((v % 2 ^ (8 * d.size)).toNat &&& Nat.ofDigitChars 2 mask 0 : Nat) : Int) < 2 ^ (8 * d.size) := by
    exact_mod_cast hlt
  refine ⟨⟨fun hk => ⟨le_trans (neg_nonpos.2 (by positivity)) (Int.natCast_nonneg _), ?_⟩,
    fun _ => ⟨Int.natCast_nonneg _, hcast⟩⟩, ?_⟩
  · have : (v % 2 ^ (8 * d.size)).toNat &&& Nat.ofDigitChars 2 mask 0 < 2 ^ (8 * d.size - 1) :=
      Nat.lt_of_le_of_lt Nat.and_le_right (hmax hk)
    exact_mod_cast this
  intro i _
  rw [Int.emod_eq_of_lt (Int.natCast_nonneg _) hcast, Int.toNat_natCast, Nat.testBit_and, Bool.and_eq_true, testBit_mask mask h]

theorem masked_ones (d : Dtype) (mask : Str) (h : ¬ '0' ∈ mask) (h' : ∀ c ∈ mask, c = '0' ∨ c = '1')
    (hl : mask.length = 8 * d.size) (v : Int) (h1 : Fits d v) : Masked d mask v v := by
  refine ⟨h1, ?_⟩
  intro i hi
  unfold MaskBit
  have : mask.reverse[i]? = some '1' := by
    have hi' : i < mask.reverse.length := by simp [hl, hi]
    rw [List.getElem?_eq_getElem hi']
    have hmem := List.mem_reverse.1 (List.getElem_mem hi')
    rcases h' _ hmem with h3 | h3
    · exact absurd (h3 ▸ hmem) h
    · rw [h3]
  simp [this]

theorem elem_int (d : Dtype) (hk : d.kind = .int ∨ d.kind = .uint) (bs : Bytes) : ∃ v, elemOf (oneVal d bs) = .int v := by
  obtain ⟨o, k, n⟩ := d
  simp only at hk
  rcases hk with rfl | rfl <;> exact ⟨_, rfl⟩

theorem elem_at {l : Label} {file : Bytes} {shape : List Nat} {d d' : Dtype} (_hs : Shaped l.axes shape)
    (h3 : d' = d ∨ ∃ o o' k, (k = .int ∨ k = .uint) ∧ d' = ⟨some o, k, 1⟩ ∧ d = ⟨some o', k, 1⟩) (h4 : d'.size = d.size) :
    ∀ ix v, Within shape ix → At file l.offset d (lastFastest shape ix) (.int v) →
      (fileElems file l.offset d' (prod shape))[lastFastest shape ix]? = some (.int v) ∧ Fits d v := by
  intro ix v hix hat
  have hlt : lastFastest shape ix < (fileElems file l.offset d' (prod shape)).length := by
    rw [fileElems_length, ← ravel_last shape ix hix.length_eq]; exact ravel_lt shape ix hix
  have := fileElems_at (List.getElem?_eq_getElem hlt) (at_lookup h3 hat)
  rw [List.getElem?_eq_getElem hlt]
  generalize (fileElems file l.offset d' (prod shape))[lastFastest shape ix] = e at *
  cases this
  refine ⟨rfl, ?_⟩
  generalize hbs : bytesAt file (l.offset + lastFastest shape ix * d.size) d.size = bs at *
  unfold At at hat
  rw [hbs] at hat
  obtain ⟨o, k, n⟩ := d
  cases hat with
  | signed g0 g1 g2 g3 g4 =>
    exact ⟨fun _ => ⟨g3, g4⟩, fun h => Kind.noConfusion h⟩
  | @unsigned o n _ v g1 g2 =>
    have : number o bs < 2 ^ (8 * n) := by
      rw [← g1]
      cases o
      · have := Nat.ofDigits_lt_base_pow_length (b := 256) (l := bs.reverse.map UInt8.toNat) (by decide)
          (by intro x hx; obtain ⟨y, -, rfl⟩ := List.mem_map.1 hx; exact y.toNat_lt)
        rw [pow_mul]
        simpa [number] using this
      · have := Nat.ofDigits_lt_base_pow_length (b := 256) (l := bs.map UInt8.toNat) (by decide)
          (by intro x hx; obtain ⟨y, -, rfl⟩ := List.mem_map.1 hx; exact y.toNat_lt)
        rw [pow_mul]
        simpa [number] using this
    rw [g2]
    exact ⟨fun h => Kind.noConfusion h, fun _ => ⟨Int.natCast_nonneg _, by exact_mod_cast this⟩⟩

/-- **C70 (bit masks).** An integer array with a `bit_mask` of as many binary digits as its elements have bits, and
without Special_Constants: each element has the bits of the value stored at its place that the mask lets through. (Signed
elements: the mask is all ones, or its first digit is 0; see C71.) -/
theorem C70_bitmask (old : Bool) (l : Label) (file : Bytes) (shape : List Nat) (d : Dtype) (mask : Str) (hs : Shaped l.axes shape)
    (hne : shape ≠ []) (ht : Pds4Type l.dataType d) (hk : d.kind = .int ∨ d.kind = .uint)
    (hmask : ∀ c ∈ mask, c = '0' ∨ c = '1') (hlen : mask.length = 8 * d.size)
    (hm : l.bitMask = some (Nat.ofDigitChars 10 mask 0)) (hsp : l.specials = none)
    (hsign : d.kind = .int → mask.head? = some '0' ∨ ¬ '0' ∈ mask)
    (hen : l.offset + prod shape * d.size ≤ file.length) :
    ∃ A, readArray old l file = .ok A ∧ A.shape = shape ∧
      ∀ ix v, Within shape ix → At file l.offset d (lastFastest shape ix) (.int v) →
        ∃ w, Has A ix (.int w) ∧ Masked d mask v w := by
  obtain ⟨d', h1, h2, h3⟩ := lookup_type ht
  obtain ⟨h4, h5⟩ := size_lookup h3
  have hf := flat_eq l file shape d' hs h1 h2 (by rw [h4]; exact hen)
  have hm0 : mask ≠ [] := by
    rintro rfl
    simp only [List.length_nil] at hlen
    omega
  have hz : zfill (8 * d'.size) (natStr (Nat.ofDigitChars 10 mask 0)) = mask := by
    rw [h4, ← hlen]; exact zfill_mask mask hmask hm0
  have hat := elem_at hs h3 h4 (file := file)
  by_cases hz0 : '0' ∈ mask
  · have hmax : ¬ maxOf d' < Nat.ofDigitChars 2 mask 0 := by
      have hlt := mask_lt mask hmask
      unfold maxOf
      rw [h4, h5]
      rcases hk with hk | hk
      · rw [if_neg (by rw [hk]; decide)]
        rcases hsign hk with hh | hh
        · cases mask with
          | nil => exact absurd rfl hm0
          | cons c t =>
            cases hh
            rw [Nat.ofDigitChars_cons]
            have := mask_lt t (fun c hc => hmask c (by simp [hc]))
            rw [List.length_cons] at hlen
            have e : 8 * d.size - 1 = t.length := by omega
            rw [e]
            have e2 : 2 * 0 + ('0'.toNat - '0'.toNat) = 0 := rfl
            rw [e2]
            omega
        · exact absurd hz0 hh
      · rw [if_pos hk, ← hlen]
        omega
    have hmap : (fileElems file l.offset d' (prod shape)).mapM (andMask d' (Nat.ofDigitChars 2 mask 0)) =
        .ok ((fileElems file l.offset d' (prod shape)).map (maskElem d' (Nat.ofDigitChars 2 mask 0))) := by
      refine mapM_map _ _ _ ?_
      intro e he
      obtain ⟨r, -, rfl⟩ := List.mem_map.1 he
      obtain ⟨v, hv⟩ := elem_int d' (by rw [h5]; exact hk) (bytesAt file (l.offset + r * d'.size) d'.size)
      rw [hv]
      simp only [andMask, maskElem, if_neg hmax]
    obtain ⟨A, a1, a2, a3⟩ := shaped l shape hs hne
      ((fileElems file l.offset d' (prod shape)).map (maskElem d' (Nat.ofDigitChars 2 mask 0)))
      (by rw [List.length_map]; exact fileElems_length file l.offset d' (prod shape))
    refine ⟨A, ?_, a2, ?_⟩
    · unfold readArray bitmasked applyBitmask
      rw [hf, hm, hsp]
      simp only [hz]
      rw [if_neg (by simpa using hz0), hmap]
      exact a1
    · intro ix v hix hv
      obtain ⟨g1, g2⟩ := hat ix v hix hv
      refine ⟨(((v % 2 ^ (8 * d'.size)).toNat &&& Nat.ofDigitChars 2 mask 0 : Nat) : Int),
        ⟨.int (((v % 2 ^ (8 * d'.size)).toNat &&& Nat.ofDigitChars 2 mask 0 : Nat) : Int), (a3 ix hix).trans (by rw [List.getElem?_map, g1]; rfl), .int⟩, ?_⟩
      rw [h4]
      refine masked_and d mask hmask hlen ?_ v
      intro hk
      unfold maxOf at hmax
      rw [h4, h5, if_neg (by rw [hk]; decide)] at hmax
      have : 0 < 2 ^ (8 * d.size - 1) := by positivity
      omega
  · obtain ⟨A, a1, a2, a3⟩ := shaped l shape hs hne (fileElems file l.offset d' (prod shape)) (fileElems_length ..)
    refine ⟨A, ?_, a2, ?_⟩
    · unfold readArray bitmasked applyBitmask
      rw [hf, hm]
      simp only [hz]
      rw [if_pos hz0]
      exact a1
    · intro ix v hix hv
      obtain ⟨g1, g2⟩ := hat ix v hix hv
      exact ⟨v, ⟨_, by rw [a3 ix hix, g1], .int⟩, masked_ones _ mask hz0 hmask hlen v g2⟩

theorem mem_compared (cs : List (Str × Const)) (v : Int) : v ∈ compared cs ↔ IsConstant cs v := by
  unfold compared IsConstant
  rw [List.mem_filterMap]
  constructor
  · rintro ⟨⟨name, c⟩, h1, h2⟩
    by_cases hv : c!"valid_".isPrefixOf name = true
    · rw [if_pos hv] at h2; cases h2
    · rw [if_neg hv] at h2
      cases c with
      | int n =>
        simp only [Option.some.injEq] at h2
        subst h2
        exact ⟨name, h1, fun h => hv (List.isPrefixOf_iff_prefix.2 h)⟩
      | real => cases h2
      | text => cases h2
  · rintro ⟨name, h1, h2⟩
    refine ⟨_, h1, ?_⟩
    rw [if_neg (fun h => h2 (List.isPrefixOf_iff_prefix.1 h))]

theorem range_ok {d d' : Dtype} (hk : d.kind = .int ∨ d.kind = .uint) (h4 : d'.size = d.size) (h5 : d'.kind = d.kind)
    (cs : List (Str × Const)) (hfit : ∀ c, IsConstant cs c → Fits d c) :
    ¬ ∃ c ∈ compared cs, c < minOf d' ∨ (maxOf d' : Int) < c := by
  rintro ⟨c, hc, h⟩
  have hf := hfit c ((mem_compared cs c).1 hc)
  unfold minOf maxOf at h
  rw [h4, h5] at h
  rcases hk with hk | hk
  · rw [if_neg (by rw [hk]; decide), if_neg (by rw [hk]; decide)] at h
    have := hf.1 hk
    have hp : 0 < 2 ^ (8 * d.size - 1) := by positivity
    push_cast [Nat.one_le_iff_ne_zero.2 hp.ne'] at h
    omega
  · rw [if_pos hk, if_pos hk] at h
    have := hf.2 hk
    have hp : 0 < 2 ^ (8 * d.size) := by positivity
    push_cast [Nat.one_le_iff_ne_zero.2 hp.ne'] at h
    omega

theorem mask_max {d d' : Dtype} {mask : Str} (hk : d.kind = .int ∨ d.kind = .uint) (h4 : d'.size = d.size) (h5 : d'.kind = d.kind)
    (hm0 : mask ≠ []) (hmask : ∀ c ∈ mask, c = '0' ∨ c = '1') (hlen : mask.length = 8 * d.size)
    (hsign : d.kind = .int → mask.head? = some '0') : ¬ maxOf d' < Nat.ofDigitChars 2 mask 0 := by
  have hlt := mask_lt mask hmask
  unfold maxOf
  rw [h4, h5]
  rcases hk with hk | hk
  · rw [if_neg (by rw [hk]; decide)]
    have hh := hsign hk
    cases mask with
    | nil => exact absurd rfl hm0
    | cons c t =>
      cases hh
      rw [Nat.ofDigitChars_cons]
      have := mask_lt t (fun c hc => hmask c (by simp [hc]))
      rw [List.length_cons] at hlen
      have e : 8 * d.size - 1 = t.length := by omega
      rw [e]
      have e2 : 2 * 0 + ('0'.toNat - '0'.toNat) = 0 := rfl
      rw [e2]
      omega
  · rw [if_pos hk, ← hlen]
    omega

/-- **C70 (bit masks and constants).** As `C70_bitmask`, with Special_Constants that are integers of the type and of which
one at least stands in the array: the elements that are constants are as stored, and the others have the bits that the mask
lets through. -/
theorem C70_bitmask_constants (old : Bool) (l : Label) (file : Bytes) (shape : List Nat) (d : Dtype) (mask : Str)
    (cs : List (Str × Const)) (hs : Shaped l.axes shape)
    (hne : shape ≠ []) (ht : Pds4Type l.dataType d) (hk : d.kind = .int ∨ d.kind = .uint)
    (hmask : ∀ c ∈ mask, c = '0' ∨ c = '1') (hlen : mask.length = 8 * d.size) (hzero : '0' ∈ mask)
    (hm : l.bitMask = some (Nat.ofDigitChars 10 mask 0)) (hsp : l.specials = some cs)
    (hsign : d.kind = .int → mask.head? = some '0') (hfit : ∀ c, IsConstant cs c → Fits d c)
    (hthere : ∃ ix c, Within shape ix ∧ At file l.offset d (lastFastest shape ix) (.int c) ∧ IsConstant cs c)
    (hen : l.offset + prod shape * d.size ≤ file.length) :
    ∃ A, readArray old l file = .ok A ∧ A.shape = shape ∧
      ∀ ix v, Within shape ix → At file l.offset d (lastFastest shape ix) (.int v) →
        (IsConstant cs v → Has A ix (.int v)) ∧ (¬ IsConstant cs v → ∃ w, Has A ix (.int w) ∧ Masked d mask v w) := by
  obtain ⟨d', h1, h2, h3⟩ := lookup_type ht
  obtain ⟨h4, h5⟩ := size_lookup h3
  have hf := flat_eq l file shape d' hs h1 h2 (by rw [h4]; exact hen)
  have hm0 : mask ≠ [] := by
    rintro rfl
    cases hzero
  have hz : zfill (8 * d'.size) (natStr (Nat.ofDigitChars 10 mask 0)) = mask := by
    rw [h4, ← hlen]; exact zfill_mask mask hmask hm0
  have hat := elem_at hs h3 h4 (file := file)
  have hmax := mask_max hk h4 h5 hm0 hmask hlen hsign
  obtain ⟨ix0, c0, i1, i2, i3⟩ := hthere
  have hc0 := (mem_compared cs c0).2 i3
  have hany : (fileElems file l.offset d' (prod shape)).any (hit cs) = true := by
    rw [List.any_eq_true]
    exact ⟨.int c0, List.mem_of_getElem? (hat ix0 c0 i1 i2).1, by simpa [hit] using hc0⟩
  let g : Elem → Elem := fun e => if hit cs e then e else maskElem d' (Nat.ofDigitChars 2 mask 0) e
  have hmap : (fileElems file l.offset d' (prod shape)).mapM
      (fun e => if hit cs e then .ok e else andMask d' (Nat.ofDigitChars 2 mask 0) e) =
        .ok ((fileElems file l.offset d' (prod shape)).map g) := by
    refine mapM_map _ _ _ ?_
    intro e he
    obtain ⟨r, -, rfl⟩ := List.mem_map.1 he
    obtain ⟨v, hv⟩ := elem_int d' (by rw [h5]; exact hk) (bytesAt file (l.offset + r * d'.size) d'.size)
    rw [hv]
    simp only [g]
    by_cases hh : hit cs (.int v) = true
    · rw [if_pos hh, if_pos hh]
    · rw [if_neg hh, if_neg hh]
      simp only [andMask, maskElem, if_neg hmax]
  obtain ⟨A, a1, a2, a3⟩ := shaped l shape hs hne ((fileElems file l.offset d' (prod shape)).map g)
    (by rw [List.length_map]; exact fileElems_length file l.offset d' (prod shape))
  refine ⟨A, ?_, a2, ?_⟩
  · unfold readArray bitmasked applyBitmask
    rw [hf, hm, hsp]
    simp only [hz]
    rw [if_neg (by simpa using hzero), if_neg (List.ne_nil_of_mem hc0), if_neg (range_ok hk h4 h5 cs hfit)]
    rw [if_pos hany, hmap]
    exact a1
  · intro ix v hix hv
    obtain ⟨g1, g2⟩ := hat ix v hix hv
    have hg : A.get ix = some (g (.int v)) := by rw [a3 ix hix, List.getElem?_map, g1]; rfl
    constructor
    · intro hc
      refine ⟨.int v, ?_, .int⟩
      rw [hg]
      have : hit cs (.int v) = true := by simpa [hit] using (mem_compared cs v).2 hc
      simp only [g, if_pos this]
    · intro hc
      refine ⟨(((v % 2 ^ (8 * d'.size)).toNat &&& Nat.ofDigitChars 2 mask 0 : Nat) : Int), ⟨.int _, ?_, .int⟩, ?_⟩
      · rw [hg]
        have : ¬ hit cs (.int v) = true := by
          simpa [hit] using fun h => hc ((mem_compared cs v).1 h)
        simp only [g, if_neg this, maskElem]
      · rw [h4]
        refine masked_and d mask hmask hlen ?_ v
        intro hk
        unfold maxOf at hmax
        rw [h4, h5, if_neg (by rw [hk]; decide)] at hmax
        have : 0 < 2 ^ (8 * d.size - 1) := by positivity
        omega

/-! ### limits -/

theorem fileElems_cons (file : Bytes) (start : Nat) (d : Dtype) (n : Nat) (h : 0 < n) :
    ∃ es, fileElems file start d n = elemOf (oneVal d (bytesAt file (start + 0 * d.size) d.size)) :: es := by
  obtain ⟨m, rfl⟩ : ∃ m, n = m + 1 := ⟨n - 1, by omega⟩
  unfold fileElems
  rw [List.range_succ_eq_map, List.map_cons]
  exact ⟨_, rfl⟩

/-- **C71 (signed arrays).** A signed array with any elements whose `bit_mask` starts with 1 and has a 0 cannot be
read: OverflowError, whatever the file has. -/
theorem C71_signed_mask (old : Bool) (l : Label) (file : Bytes) (shape : List Nat) (d : Dtype) (mask : Str)
    (hs : Shaped l.axes shape) (hpos : 0 < prod shape) (ht : Pds4Type l.dataType d) (hk : d.kind = .int)
    (hmask : ∀ c ∈ mask, c = '0' ∨ c = '1') (hlen : mask.length = 8 * d.size) (hone : mask.head? = some '1') (hzero : '0' ∈ mask)
    (hm : l.bitMask = some (Nat.ofDigitChars 10 mask 0)) (hsp : l.specials = none)
    (hen : l.offset + prod shape * d.size ≤ file.length) :
    readArray old l file = .error .overflowError := by
  obtain ⟨d', h1, h2, h3⟩ := lookup_type ht
  obtain ⟨h4, h5⟩ := size_lookup h3
  have hf := flat_eq l file shape d' hs h1 h2 (by rw [h4]; exact hen)
  have hm0 : mask ≠ [] := by rintro rfl; cases hone
  have hz : zfill (8 * d'.size) (natStr (Nat.ofDigitChars 10 mask 0)) = mask := by
    rw [h4, ← hlen]; exact zfill_mask mask hmask hm0
  have hmax : maxOf d' < Nat.ofDigitChars 2 mask 0 := by
    unfold maxOf
    rw [h4, h5, if_neg (by rw [hk]; decide)]
    cases mask with
    | nil => exact absurd rfl hm0
    | cons c t =>
      cases hone
      rw [List.length_cons] at hlen
      have e : 8 * d.size - 1 = t.length := by omega
      rw [e]
      have hb : (Nat.ofDigitChars 2 ('1' :: t) 0).testBit t.length = true := by
        rw [testBit_mask _ hmask]
        unfold MaskBit
        simp
      have := Nat.ge_two_pow_of_testBit hb
      have : 0 < 2 ^ t.length := by positivity
      omega
  unfold readArray bitmasked applyBitmask
  rw [hf, hm, hsp]
  simp only [hz]
  rw [if_neg (by simpa using hzero)]
  obtain ⟨es, hes⟩ := fileElems_cons file l.offset d' (prod shape) hpos
  obtain ⟨v, hv⟩ := elem_int d' (by rw [h5]; exact .inl hk) (bytesAt file (l.offset + 0 * d'.size) d'.size)
  rw [hes, hv, List.mapM_cons]
  simp only [andMask, if_pos hmax]
  rfl

theorem not_there {file : Bytes} {start : Nat} {d d' : Dtype} {n : Nat} {cs : List (Str × Const)}
    (h3 : d' = d ∨ ∃ o o' k, (k = .int ∨ k = .uint) ∧ d' = ⟨some o, k, 1⟩ ∧ d = ⟨some o', k, 1⟩)
    (habs : ∀ k < n, ∃ v, At file start d k (.int v) ∧ ¬ IsConstant cs v) :
    ¬ (fileElems file start d' n).any (hit cs) = true := by
  intro h
  rw [List.any_eq_true] at h
  obtain ⟨e, he, hh⟩ := h
  obtain ⟨k, hk, rfl⟩ := List.getElem_of_mem he
  have hk' : k < n := by rwa [fileElems_length] at hk
  obtain ⟨v, hv, hn⟩ := habs k hk'
  have := fileElems_at (List.getElem?_eq_getElem hk) (at_lookup h3 hv)
  generalize (fileElems file start d' n)[k] = e at *
  cases this
  simp only [hit, decide_eq_true_eq] at hh
  exact hn ((mem_compared cs v).1 hh)

/-- **C71 (constants that are not there).** An integer array with a `bit_mask` that has a 0, with Special_Constants that
are integers of its type, of which none stands in the array, cannot be read with NumPy from 2.1 on: ValueError. -/
theorem C71_constants_absent (l : Label) (file : Bytes) (shape : List Nat) (d : Dtype) (mask : Str) (cs : List (Str × Const))
    (hs : Shaped l.axes shape) (ht : Pds4Type l.dataType d) (hk : d.kind = .int ∨ d.kind = .uint)
    (hmask : ∀ c ∈ mask, c = '0' ∨ c = '1') (hlen : mask.length = 8 * d.size) (hzero : '0' ∈ mask)
    (hm : l.bitMask = some (Nat.ofDigitChars 10 mask 0)) (hsp : l.specials = some cs)
    (hsome : ∃ c, IsConstant cs c) (hfit : ∀ c, IsConstant cs c → Fits d c)
    (habs : ∀ k < prod shape, ∃ v, At file l.offset d k (.int v) ∧ ¬ IsConstant cs v)
    (hen : l.offset + prod shape * d.size ≤ file.length) :
    readArray false l file = .error .valueError := by
  obtain ⟨d', h1, h2, h3⟩ := lookup_type ht
  obtain ⟨h4, h5⟩ := size_lookup h3
  have hf := flat_eq l file shape d' hs h1 h2 (by rw [h4]; exact hen)
  have hm0 : mask ≠ [] := by
    rintro rfl
    cases hzero
  have hz : zfill (8 * d'.size) (natStr (Nat.ofDigitChars 10 mask 0)) = mask := by
    rw [h4, ← hlen]; exact zfill_mask mask hmask hm0
  obtain ⟨c0, hc0⟩ := hsome
  unfold readArray bitmasked applyBitmask
  rw [hf, hm, hsp]
  simp only [hz]
  rw [if_neg (by simpa using hzero), if_neg (List.ne_nil_of_mem ((mem_compared cs c0).2 hc0)), if_neg (range_ok hk h4 h5 cs hfit)]
  rw [if_neg (not_there h3 habs)]
  rfl

/-- **C71 (constants that are not there, earlier versions).** With NumPy before 2.1 the same array is read, but the
mask is applied to its first element only: all the others have all their bits. -/
theorem C71_constants_absent_old (l : Label) (file : Bytes) (shape : List Nat) (d : Dtype) (mask : Str) (cs : List (Str × Const))
    (hs : Shaped l.axes shape) (hpos : 0 < prod shape) (hne : shape ≠ []) (ht : Pds4Type l.dataType d)
    (hk : d.kind = .int ∨ d.kind = .uint)
    (hmask : ∀ c ∈ mask, c = '0' ∨ c = '1') (hlen : mask.length = 8 * d.size) (hzero : '0' ∈ mask)
    (hsign : d.kind = .int → mask.head? = some '0')
    (hm : l.bitMask = some (Nat.ofDigitChars 10 mask 0)) (hsp : l.specials = some cs)
    (hsome : ∃ c, IsConstant cs c) (hfit : ∀ c, IsConstant cs c → Fits d c)
    (habs : ∀ k < prod shape, ∃ v, At file l.offset d k (.int v) ∧ ¬ IsConstant cs v)
    (hen : l.offset + prod shape * d.size ≤ file.length) :
    ∃ A, readArray true l file = .ok A ∧ A.shape = shape ∧
      ∀ ix v, Within shape ix → lastFastest shape ix ≠ 0 → At file l.offset d (lastFastest shape ix) (.int v) → Has A ix (.int v) := by
  obtain ⟨d', h1, h2, h3⟩ := lookup_type ht
  obtain ⟨h4, h5⟩ := size_lookup h3
  have hf := flat_eq l file shape d' hs h1 h2 (by rw [h4]; exact hen)
  have hm0 : mask ≠ [] := by
    rintro rfl
    cases hzero
  have hz : zfill (8 * d'.size) (natStr (Nat.ofDigitChars 10 mask 0)) = mask := by
    rw [h4, ← hlen]; exact zfill_mask mask hmask hm0
  obtain ⟨c0, hc0⟩ := hsome
  have hmax := mask_max hk h4 h5 hm0 hmask hlen hsign
  have hnot := not_there h3 habs
  have hat := elem_at hs h3 h4 (file := file)
  obtain ⟨es, hes⟩ := fileElems_cons file l.offset d' (prod shape) hpos
  obtain ⟨v, hv⟩ := elem_int d' (by rw [h5]; exact hk) (bytesAt file (l.offset + 0 * d'.size) d'.size)
  rw [hv] at hes
  have hl : es.length + 1 = prod shape := by
    rw [← fileElems_length file l.offset d' (prod shape), hes, List.length_cons]
  obtain ⟨A, a1, a2, a3⟩ := shaped l shape hs hne (maskElem d' (Nat.ofDigitChars 2 mask 0) (.int v) :: es) (by simpa using hl)
  refine ⟨A, ?_, a2, ?_⟩
  · unfold readArray bitmasked applyBitmask
    rw [hf, hm, hsp]
    simp only [hz]
    rw [if_neg (by simpa using hzero), if_neg (List.ne_nil_of_mem ((mem_compared cs c0).2 hc0)), if_neg (range_ok hk h4 h5 cs hfit)]
    rw [if_neg hnot, hes]
    simp only [andMask, if_neg hmax, if_true]
    exact a1
  · intro ix w hix h0 hw
    refine ⟨.int w, ?_, .int⟩
    have := (hat ix w hix hw).1
    rw [hes] at this
    rw [a3 ix hix, ← this]
    obtain ⟨k, hk⟩ : ∃ k, lastFastest shape ix = k + 1 := ⟨lastFastest shape ix - 1, by omega⟩
    rw [hk, List.getElem?_cons_succ, List.getElem?_cons_succ]

/-- **C71 (no constant to compare).** An integer array with a `bit_mask` that has a 0 and Special_Constants of which none is
an integer that is no `valid_` limit cannot be read: AttributeError. -/
theorem C71_no_integer_constants (old : Bool) (l : Label) (file : Bytes) (shape : List Nat) (d : Dtype) (mask : Str)
    (cs : List (Str × Const)) (hs : Shaped l.axes shape) (ht : Pds4Type l.dataType d)
    (hmask : ∀ c ∈ mask, c = '0' ∨ c = '1') (hlen : mask.length = 8 * d.size) (hzero : '0' ∈ mask)
    (hm : l.bitMask = some (Nat.ofDigitChars 10 mask 0)) (hsp : l.specials = some cs) (hnone : ¬ ∃ c, IsConstant cs c)
    (hen : l.offset + prod shape * d.size ≤ file.length) :
    readArray old l file = .error .attributeError := by
  obtain ⟨d', h1, h2, h3⟩ := lookup_type ht
  obtain ⟨h4, h5⟩ := size_lookup h3
  have hf := flat_eq l file shape d' hs h1 h2 (by rw [h4]; exact hen)
  have hm0 : mask ≠ [] := by
    rintro rfl
    cases hzero
  have hz : zfill (8 * d'.size) (natStr (Nat.ofDigitChars 10 mask 0)) = mask := by
    rw [h4, ← hlen]; exact zfill_mask mask hmask hm0
  have hc : compared cs = [] := by
    rw [List.eq_nil_iff_forall_not_mem]
    exact fun c hc => hnone ⟨c, (mem_compared cs c).1 hc⟩
  unfold readArray bitmasked applyBitmask
  rw [hf, hm, hsp]
  simp only [hz]
  rw [if_neg (by simpa using hzero), if_pos hc]

/-- **C71 (files too short, several axes).** If the file ends within the array and the array has several axes, reading it is
an error. -/
theorem C71_truncated (old : Bool) (l : Label) (file : Bytes) (shape : List Nat) (d : Dtype) (hs : Shaped l.axes shape)
    (hax : 1 < shape.length) (ht : Pds4Type l.dataType d) (hm : l.bitMask = none)
    (hen : file.length < l.offset + prod shape * d.size) (hpos : 0 < prod shape) : ∃ e, readArray old l file = .error e := by
  obtain ⟨d', h1, h2, h3⟩ := lookup_type ht
  obtain ⟨h4, h5⟩ := size_lookup h3
  unfold readArray
  have hd := dimensions_eq l shape hs
  cases hf : flat l file with
  | error e => exact ⟨e, rfl⟩
  | ok r =>
    obtain ⟨d2, data⟩ := r
    refine ⟨.valueError, ?_⟩
    unfold bitmasked
    rw [hm, hd]
    simp only [if_pos (show shape.length > 1 from hax)]
    have hlt : data.length < prod shape := by
      unfold flat at hf
      rw [h1, hd] at hf
      unfold readRecords at hf
      simp only [if_true, if_neg (show ¬ d'.size = 0 by omega)] at hf
      split at hf
      · cases hf
      · rename_i hx
        split at hx
        · cases hx
        · cases hx
          simp only [Except.ok.injEq, Prod.mk.injEq] at hf
          rw [← hf.2, elems_eq, List.length_map, records_length, List.length_take, List.length_drop, Nat.div_lt_iff_lt_mul h2, h4]
          have : 0 < prod shape * d.size := Nat.mul_pos hpos (by omega)
          omega
    unfold Arr.reshape
    rw [if_neg]
    simp only [Arr.ofList, prod]
    omega

/-- **C71 (files too short, one axis).** If the file ends within an array of one axis, after a number `k` of whole elements,
the array has `k` elements and nothing tells that there should be more. -/
theorem C71_truncated_one (old : Bool) (l : Label) (file : Bytes) (n k : Nat) (d : Dtype) (hs : Shaped l.axes [n])
    (ht : Pds4Type l.dataType d) (hm : l.bitMask = none) (hk : k ≤ n) (hen : file.length = l.offset + k * d.size) :
    ∃ A, readArray old l file = .ok A ∧ A.shape = [k] ∧ ∀ i v, i < k → At file l.offset d i v → Has A [i] v := by
  obtain ⟨d', h1, h2, h3⟩ := lookup_type ht
  obtain ⟨h4, h5⟩ := size_lookup h3
  have hd := dimensions_eq l [n] hs
  have hf : flat l file = .ok (d', fileElems file l.offset d' k) := by
    have hr : readRecords true file l.offset d'.size (prod [n]) = readRecords true file l.offset d'.size k := by
      unfold readRecords
      rw [if_neg (show ¬ d'.size = 0 by omega), if_neg (show ¬ d'.size = 0 by omega)]
      have e : (file.drop l.offset).take (prod [n] * d'.size) = (file.drop l.offset).take (k * d'.size) := by
        have hl : (file.drop l.offset).length = k * d'.size := by rw [List.length_drop, h4]; omega
        rw [List.take_of_length_le (by rw [hl]; simp only [prod, Nat.mul_one]; exact Nat.mul_le_mul_right _ hk),
          List.take_of_length_le (by omega)]
      simp only [if_true, e]
    unfold flat
    rw [h1, hd]
    simp only [hr, readRecords_eq true file l.offset d'.size k h2 (by rw [h4]; omega), elems_eq, List.map_map]
    rfl
  refine ⟨Arr.ofList (fileElems file l.offset d' k), ?_, ?_, ?_⟩
  · unfold readArray bitmasked
    rw [hf, hm, hd]
    rfl
  · simp [Arr.ofList, fileElems_length]
  · intro i v hi hat
    have hlt : i < (fileElems file l.offset d' k).length := by rwa [fileElems_length]
    refine ⟨_, ?_, fileElems_at (List.getElem?_eq_getElem hlt) (at_lookup h3 hat)⟩
    simp [Arr.ofList]

/-! ### the hypotheses can be met -/

/-- two rows of three elements, listed columns first -/
def demo : Label where
  offset := 2
  axes := [⟨2, 3⟩, ⟨1, 2⟩]
  dataType := c!"SignedMSB2"

theorem demo_shaped : Shaped demo.axes [2, 3] := List.Perm.swap _ _ _

def demoFile : Bytes := [9, 9, 0, 1, 0, 2, 0, 3, 0, 4, 0, 5, 255, 250]

example : demo.offset + prod [2, 3] * 2 ≤ demoFile.length := by decide

/-- the last element of the second row is -6 -/
example : At demoFile demo.offset ⟨some .big, .int, 2⟩ (lastFastest [2, 3] [1, 2]) (.int (-6)) :=
  .signed (by decide) rfl (by decide) (by decide) (by decide)

example : Pds4Type demo.dataType ⟨some .big, .int, 2⟩ := .signed .big 2 (by decide)

/-- the lowest eight bits, and a constant that is there -/
def demoMask : Label := { demo with
  bitMask := some 11111111
  specials := some [(c!"missing_constant", .int (-6))] }

def mask8 : Str := c!"0000000011111111"

example : mask8.length = 8 * 2 ∧ (∀ c ∈ mask8, c = '0' ∨ c = '1') ∧ '0' ∈ mask8 ∧ mask8.head? = some '0' ∧
    demoMask.bitMask = some (Nat.ofDigitChars 10 mask8 0) := ⟨by decide, by decide, by decide, by decide, rfl⟩

example : IsConstant [(c!"missing_constant", .int (-6))] (-6) := ⟨c!"missing_constant", by simp, by decide⟩

/-- the integers of an array, or the error -/
def shown (r : Except PyErr (Arr Elem)) (ixs : List (List Nat)) : PyErr ⊕ List (Option Int) :=
  match r with
  | .error e => .inl e
  | .ok A => .inr (ixs.map (fun ix => (A.get ix).bind (fun e => match e with
    | .int v => some v
    | _ => none)))

/-- what comes out -/
example : shown (readArray true demoMask demoFile) [[0, 0], [1, 2]] = .inr [some 1, some (-6)] := by decide +kernel

/-- a mask that starts with 1 -/
example : readArray false { demo with bitMask := some 1111111100000000 } demoFile = .error .overflowError :=
  C71_signed_mask false _ demoFile [2, 3] ⟨some .big, .int, 2⟩ c!"1111111100000000" demo_shaped (by decide) (.signed .big 2 (by decide))
    rfl (by decide) rfl rfl (by decide) rfl rfl (by decide)

/-- a constant that is not there -/
example : shown (readArray false { demoMask with specials := some [(c!"missing_constant", .int 77)] } demoFile) [] = .inl .valueError := by
  decide +kernel

/-- only limits -/
example : shown (readArray false { demoMask with specials := some [(c!"valid_maximum", .int 77)] } demoFile) [] = .inl .attributeError := by
  decide +kernel

/-- a file that ends early -/
example : ∃ e, readArray false demo (demoFile.take 12) = .error e :=
  C71_truncated false demo _ [2, 3] ⟨some .big, .int, 2⟩ demo_shaped (by decide) (.signed .big 2 (by decide)) rfl (by decide) (by decide)

end Verif.Pds4Array
