/-
C08, C09, C37: bit columns.
-/
import Verif.Lemmas.Bits
import Mathlib.Data.List.Forall2

namespace Verif.Bits
open Verif.Py Verif.Bits.Spec

/-- **C08 (big-endian).** Every row of a big-endian bit column is shown as the bits of its bytes, in file
order, whatever the field length and the number of rows. -/
theorem C08_big_endian_bits (rows : List Bytes) (L : Nat) (hne : rows ≠ []) (hL : 0 < L)
    (h : ∀ r ∈ rows, r.length = L) :
    convertColumn .big rows = .ok (rows.map bytesBits) := by
  rw [convertColumn_eq .big rows L hne hL h]
  congr 1
  apply List.map_congr_left
  intro r hr
  rw [factor_eq, recordBits_big _ _ (wordWidths_pos L) (by rw [wordWidths_sum, h r hr]; exact Nat.le_refl _),
    wordWidths_sum, List.take_of_length_le (by rw [h r hr]; exact Nat.le_refl _)]

/-- **C08 (little-endian).** Every row of a little-endian bit column is shown as the bits of its bytes
after reversing the bytes of each machine word of the field. -/
theorem C08_little_endian_bits (rows : List Bytes) (L : Nat) (hne : rows ≠ []) (hL : 0 < L)
    (h : ∀ r ∈ rows, r.length = L) :
    convertColumn .little rows = .ok (rows.map (fun r => bytesBits (swapWords (wordWidths L) r))) := by
  rw [convertColumn_eq .little rows L hne hL h]
  congr 1
  apply List.map_congr_left
  intro r hr
  rw [factor_eq, recordBits_little _ _ (wordWidths_pos L) (by rw [wordWidths_sum, h r hr]; exact Nat.le_refl _)]

theorem bytesBits_length (bs : Bytes) : (bytesBits bs).length = 8 * bs.length := by
  induction bs with
  | nil => rfl
  | cons b bs ih =>
    have : bytesBits (b :: bs) = byteBits b ++ bytesBits bs := rfl
    rw [this, List.length_append, ih]
    simp [byteBits]; omega

theorem swapWords_length (ws : List Nat) (bs : Bytes) (h : ws.sum ≤ bs.length) :
    (swapWords ws bs).length = ws.sum := by
  induction ws generalizing bs with
  | nil => rfl
  | cons w ws ih =>
    simp only [List.sum_cons] at h ⊢
    rw [swapWords, List.length_append, ih _ (by simp; omega)]
    simp; omega

/-- **C08 (length).** In either byte order each row gives exactly eight bits per byte. -/
theorem C08_bit_count (o : Order) (rows : List Bytes) (L : Nat) (hne : rows ≠ []) (hL : 0 < L)
    (h : ∀ r ∈ rows, r.length = L) :
    ∃ out, convertColumn o rows = .ok out ∧ out.length = rows.length ∧ ∀ s ∈ out, s.length = 8 * L := by
  cases o with
  | big =>
    refine ⟨_, C08_big_endian_bits rows L hne hL h, by simp, ?_⟩
    intro s hs
    obtain ⟨r, hr, rfl⟩ := List.mem_map.1 hs
    rw [bytesBits_length, h r hr]
  | little =>
    refine ⟨_, C08_little_endian_bits rows L hne hL h, by simp, ?_⟩
    intro s hs
    obtain ⟨r, hr, rfl⟩ := List.mem_map.1 hs
    rw [bytesBits_length, swapWords_length _ _ (by rw [wordWidths_sum, h r hr]; exact Nat.le_refl _),
      wordWidths_sum]

theorem byteBits_injective (a b : UInt8) (h : byteBits a = byteBits b) : a = b := by
  apply UInt8.toNat_inj.1
  apply Nat.eq_of_testBit_eq
  intro i
  simp only [byteBits, List.map_cons, List.map_nil, List.cons.injEq] at h
  have key : ∀ x y : Bool, (if x = true then '1' else '0') = (if y = true then '1' else '0') → x = y := by decide
  by_cases hi : i < 8
  · obtain ⟨h7, h6, h5, h4, h3, h2, h1, h0, -⟩ := h
    have : i = 0 ∨ i = 1 ∨ i = 2 ∨ i = 3 ∨ i = 4 ∨ i = 5 ∨ i = 6 ∨ i = 7 := by omega
    rcases this with rfl | rfl | rfl | rfl | rfl | rfl | rfl | rfl
    · exact key _ _ h0
    · exact key _ _ h1
    · exact key _ _ h2
    · exact key _ _ h3
    · exact key _ _ h4
    · exact key _ _ h5
    · exact key _ _ h6
    · exact key _ _ h7
  · have h8 : 2 ^ 8 ≤ 2 ^ i := Nat.pow_le_pow_right (by omega) (by omega)
    rw [Nat.testBit_lt_two_pow (Nat.lt_of_lt_of_le a.toNat_lt h8),
      Nat.testBit_lt_two_pow (Nat.lt_of_lt_of_le b.toNat_lt h8)]

theorem bytesBits_injective (a b : Bytes) (h : bytesBits a = bytesBits b) : a = b := by
  induction a generalizing b with
  | nil =>
    have := congrArg List.length h
    rw [bytesBits_length, bytesBits_length] at this
    exact (List.eq_nil_of_length_eq_zero (by simp at this; omega)).symm
  | cons x a ih =>
    cases b with
    | nil =>
      have := congrArg List.length h
      rw [bytesBits_length, bytesBits_length] at this
      simp at this
    | cons y b =>
      have h' : byteBits x ++ bytesBits a = byteBits y ++ bytesBits b := h
      obtain ⟨h1, h2⟩ := List.append_inj h' (by simp [byteBits])
      rw [byteBits_injective x y h1, ih b h2]

theorem swapWords_injective (ws : List Nat) (a b : Bytes) (ha : a.length = ws.sum) (hb : b.length = ws.sum)
    (h : swapWords ws a = swapWords ws b) : a = b := by
  induction ws generalizing a b with
  | nil =>
    rw [List.eq_nil_of_length_eq_zero ha, List.eq_nil_of_length_eq_zero hb]
  | cons w ws ih =>
    simp only [List.sum_cons] at ha hb
    rw [swapWords, swapWords] at h
    obtain ⟨h1, h2⟩ := List.append_inj h (by simp; omega)
    have h3 := ih _ _ (by simp; omega) (by simp; omega) h2
    have h4 := List.reverse_inj.1 h1
    rw [← List.take_append_drop w a, ← List.take_append_drop w b, h3, h4]

/-- **C08 (nothing lost).** In either byte order two columns with different contents never show the
same bits. -/
theorem C08_lossless (o : Order) (rows rows' : List Bytes) (L : Nat) (hne : rows ≠ []) (hne' : rows' ≠ [])
    (hL : 0 < L) (h : ∀ r ∈ rows, r.length = L) (h' : ∀ r ∈ rows', r.length = L)
    (heq : convertColumn o rows = convertColumn o rows') : rows = rows' := by
  have inj : ∀ (f : Bytes → Str), (∀ a b : Bytes, a.length = L → b.length = L → f a = f b → a = b) →
      ∀ l l' : List Bytes, (∀ r ∈ l, r.length = L) → (∀ r ∈ l', r.length = L) → l.map f = l'.map f → l = l' := by
    intro f hf l
    induction l with
    | nil => intro l' _ _ e; simp at e; exact e.symm
    | cons a l ih =>
      intro l' hl hl' e
      cases l' with
      | nil => simp at e
      | cons b l' =>
        simp only [List.map_cons, List.cons.injEq] at e
        rw [hf a b (hl a (by simp)) (hl' b (by simp)) e.1,
          ih l' (fun r hr => hl r (by simp [hr])) (fun r hr => hl' r (by simp [hr])) e.2]
  cases o with
  | big =>
    rw [C08_big_endian_bits rows L hne hL h, C08_big_endian_bits rows' L hne' hL h'] at heq
    injection heq with heq
    exact inj _ (fun a b _ _ e => bytesBits_injective a b e) rows rows' h h' heq
  | little =>
    rw [C08_little_endian_bits rows L hne hL h, C08_little_endian_bits rows' L hne' hL h'] at heq
    injection heq with heq
    refine inj _ (fun a b ha hb e => ?_) rows rows' h h' heq
    exact swapWords_injective (wordWidths L) a b (by rw [wordWidths_sum, ha]) (by rw [wordWidths_sum, hb])
      (bytesBits_injective _ _ e)

/-- **C08 (word-sized little-endian fields).** A little-endian field of 1, 2, 4 or 8 bytes shows the bits
of the number it holds: its bytes in reverse. -/
theorem C08_little_endian_word (rows : List Bytes) (L : Nat) (hne : rows ≠ [])
    (hL : L = 1 ∨ L = 2 ∨ L = 4 ∨ L = 8) (h : ∀ r ∈ rows, r.length = L) :
    convertColumn .little rows = .ok (rows.map (fun r => bytesBits r.reverse)) := by
  rw [C08_little_endian_bits rows L hne (by omega) h]
  congr 1
  apply List.map_congr_left
  intro r hr
  have hw : wordWidths L = [L] := by rcases hL with rfl | rfl | rfl | rfl <;> rfl
  rw [hw, swapWords, swapWords, List.append_nil, List.take_of_length_le (by rw [h r hr]; exact Nat.le_refl _)]

example : convertColumn .little [[1, 2, 3], [4, 5, 6]] =
    .ok [c!"000000100000000100000011", c!"000001010000010000000110"] ∧
    convertColumn .big [[1, 2, 3]] = .ok [c!"000000010000001000000011"] := by
  constructor
  · rw [C08_little_endian_bits _ 3 (by simp) (by simp) (by simp)]; rfl
  · rw [C08_big_endian_bits _ 3 (by simp) (by simp) (by simp)]; rfl

/-- **C37.** A little-endian field whose length is not 1, 2, 4 or 8 is *not* shown as the bits of the
little-endian number it holds: the first eight bits shown are those of byte `w` (one-based), where
`w < L` is the width of the field's first machine word, and not those of its last byte. -/
theorem C37_odd_little_endian_fields_are_mixed (rows : List Bytes) (L : Nat) (hne : rows ≠ [])
    (hL : L ≠ 0 ∧ L ≠ 1 ∧ L ≠ 2 ∧ L ≠ 4 ∧ L ≠ 8) (h : ∀ r ∈ rows, r.length = L) :
    ∃ w out, (w = 2 ∨ w = 4 ∨ w = 8) ∧ w < L ∧ convertColumn .little rows = .ok out ∧
      List.Forall₂ (fun (r : Bytes) s => ∀ b, r[w - 1]? = some b → s.take 8 = byteBits b) rows out := by
  have hws : ∃ w ws, wordWidths L = w :: ws ∧ (w = 2 ∨ w = 4 ∨ w = 8) ∧ w < L := by
    unfold wordWidths
    by_cases h8 : 8 ≤ L
    · obtain ⟨q, hq⟩ : ∃ q, L / 8 = q + 1 := ⟨L / 8 - 1, by omega⟩
      exact ⟨8, _, by rw [hq, List.replicate_succ]; rfl, by omega, by omega⟩
    · have : L = 3 ∨ L = 5 ∨ L = 6 ∨ L = 7 := by omega
      rcases this with rfl | rfl | rfl | rfl
      · exact ⟨2, _, rfl, by omega, by omega⟩
      · exact ⟨4, _, rfl, by omega, by omega⟩
      · exact ⟨4, _, rfl, by omega, by omega⟩
      · exact ⟨4, _, rfl, by omega, by omega⟩
  obtain ⟨w, ws, hws, hw, hwL⟩ := hws
  refine ⟨w, _, hw, hwL, C08_little_endian_bits rows L hne (by omega) h, ?_⟩
  rw [List.forall₂_map_right_iff, List.forall₂_same]
  intro r hr b hb
  rw [hws, swapWords]
  have hrl := h r hr
  have hsplit : r.take w = r.take (w - 1) ++ [b] := by
    have : w = w - 1 + 1 := by omega
    rw [this, List.take_add_one, Nat.add_sub_cancel, hb]; rfl
  rw [hsplit, List.reverse_append]
  have : bytesBits ([b].reverse ++ (List.take (w - 1) r).reverse ++ swapWords ws (List.drop w r)) =
      byteBits b ++ bytesBits ((List.take (w - 1) r).reverse ++ swapWords ws (List.drop w r)) := rfl
  rw [this]
  exact List.take_left' (by simp [byteBits])

/-- three bytes: the middle one comes first -/
example : convertColumn .little [[0, 255, 0]] = .ok [c!"111111110000000000000000"] := by
  rw [C08_little_endian_bits _ 3 (by simp) (by simp) (by simp)]; rfl

/-! ### C09 -/

theorem pySlice_field {α : Type} (s : List α) (a b : Nat) (h1 : 1 ≤ a) (h2 : a - 1 + b ≤ s.length) :
    pySlice s ((a : Int) - 1) ((a : Int) - 1 + b) = field s a b := by
  unfold pySlice field clampIx
  rw [if_neg (by omega), if_neg (by omega)]
  rw [show min ((a : Int) - 1 + b).toNat s.length = (a - 1) + b by omega,
    show min ((a : Int) - 1).toNat s.length = a - 1 by omega]
  rw [List.drop_take]
  congr 1
  omega

theorem itemStarts_eq (s b : Nat) (n i : Nat) :
    itemStarts s b i n = (List.range n).map (fun j => (((s + (i + j) * b : Nat)) : Int)) := by
  induction n generalizing i with
  | zero => rfl
  | succ n ih =>
    rw [itemStarts, ih, List.range_succ_eq_map, List.map_cons, List.map_map]
    congr 1
    apply List.map_congr_left
    intro j _
    simp only [Function.comp]
    congr 2
    congr 1
    omega

theorem bitFields_eq (defs : List BitDef) (fss : List (List (Nat × Nat)))
    (h : List.Forall₂ Declares defs fss) :
    bitFields defs = .ok (fss.flatten.map (fun p => (some (p.1 : Int), some (p.2 : Int)))) := by
  induction h with
  | nil => rfl
  | @cons d fs ds fss hd _ ih =>
    rw [bitFields, ih]
    cases hd with
    | plain => simp
    | @items nm bs s b n hn =>
      simp only
      rw [if_pos (by omega), if_neg (by omega)]
      simp only [Int.toNat_natCast, itemStarts_eq, List.map_map, List.flatten_cons, List.map_append]
      congr 2
      apply List.map_congr_left
      intro j _
      simp

theorem zeroIndex_some (l : List Int) : zeroIndex (l.map some) = .ok (l.map (· - 1)) := by
  induction l with
  | nil => rfl
  | cons a l ih => rw [List.map_cons, zeroIndex, ih]; rfl

theorem allSome_some (l : List Int) : allSome (l.map some) = .ok l := by
  induction l with
  | nil => rfl
  | cons a l ih => rw [List.map_cons, allSome, ih]

/-- Cutting up a bit string column according to its BIT_COLUMN definitions, as the loader does. -/
def bitColumnValues (instrument : Str) (defs : List BitDef) (col : List Str) :
    Except PyErr (List (List Str)) :=
  match bitStartAndSize instrument defs with
  | .error e => .error e
  | .ok (st, sz) => spliceColumn st sz col

theorem splitBits_fields (fs : List (Nat × Nat)) (s : Str)
    (hfit : ∀ f ∈ fs, 1 ≤ f.1 ∧ f.1 - 1 + f.2 ≤ s.length) :
    splitBits s (fs.map (fun f => (f.1 : Int) - 1)) (fs.map (fun f => (f.2 : Int))) =
      fs.map (fun f => field s f.1 f.2) := by
  induction fs with
  | nil => rfl
  | cons f fs ih =>
    have h1 := hfit f (by simp)
    have := ih (fun g hg => hfit g (by simp [hg]))
    simp only [splitBits] at this
    simp only [splitBits, List.map_cons, List.zipWith_cons_cons, List.zip_cons_cons, this]
    rw [pySlice_field s f.1 f.2 h1.1 h1.2]

/-- **C09.** For every row, the values of a bit column are the declared fields, in label order: `BITS`
bits from one-based `START_BIT`, and for a definition with `ITEMS` that many consecutive fields of
`ITEM_BITS`. (Instruments with the JIRAM correction excepted: `C09_jiram_correction`.) -/
theorem C09_fields_are_cut_where_the_label_says (instrument : Str) (defs : List BitDef)
    (fss : List (List (Nat × Nat))) (hne : defs ≠ []) (hdecl : List.Forall₂ Declares defs fss)
    (col : List Str) (hfit : ∀ s ∈ col, ∀ f ∈ fss.flatten, 1 ≤ f.1 ∧ f.1 - 1 + f.2 ≤ s.length)
    (hinst : ¬ instrument <:+: c!"JOVIAN INFRARED AURORAL MAPPER" ∨
      ∀ d, defs.getLast? = some d → d.name ≠ some c!"NADIR_OFFSET_SIGN") :
    bitColumnValues instrument defs col =
      .ok (col.map (fun s => fss.flatten.map (fun f => field s f.1 f.2))) := by
  have hcont : ∀ s sub : Str, contains s sub = true ↔ sub <:+: s := by
    intro s sub
    induction s with
    | nil =>
      rw [contains, List.isEmpty_iff]
      constructor
      · rintro rfl; exact List.infix_refl _
      · intro h; exact List.eq_nil_of_infix_nil h
    | cons c s ih =>
      rw [contains, Bool.or_eq_true, ih, List.isPrefixOf_iff_prefix, List.infix_cons_iff]
  have hsp : ∀ st, specialStarts instrument defs st = st := by
    intro st
    unfold specialStarts
    split
    · rename_i hc
      rw [hcont] at hc
      cases hl : defs.getLast? with
      | none => rfl
      | some d =>
        simp only
        rw [if_neg]
        rcases hinst with h | h
        · exact absurd hc h
        · exact h d hl
    · rfl
  unfold bitColumnValues bitStartAndSize
  cases defs with
  | nil => exact absurd rfl hne
  | cons d ds =>
    simp only [bitFields_eq _ _ hdecl, hsp, List.map_map]
    unfold spliceColumn
    have e1 : List.map ((fun x : Option Int × Option Int => x.1) ∘ fun p : Nat × Nat => (some (p.1 : Int), some (p.2 : Int))) fss.flatten =
        (fss.flatten.map (fun p => (p.1 : Int))).map some := by simp [List.map_map, Function.comp_def]
    have e2 : List.map ((fun x : Option Int × Option Int => x.2) ∘ fun p : Nat × Nat => (some (p.1 : Int), some (p.2 : Int))) fss.flatten =
        (fss.flatten.map (fun p => (p.2 : Int))).map some := by simp [List.map_map, Function.comp_def]
    rw [e1, e2, zeroIndex_some, allSome_some]
    simp only [List.map_map]
    congr 1
    apply List.map_congr_left
    intro s hs
    exact splitBits_fields fss.flatten s (hfit s hs)

/-- **C09 (JIRAM).** For the JIRAM instrument (and, the test being a substring test, for products with an
empty instrument name) a last definition named NADIR_OFFSET_SIGN is read from bit 16 instead of its
declared start; all other fields are as declared. -/
theorem C09_jiram_correction (instrument : Str) (h : instrument = c!"JOVIAN INFRARED AURORAL MAPPER" ∨ instrument = [])
    (ds : List BitDef) (s b : Nat) (fss : List (List (Nat × Nat))) (hdecl : List.Forall₂ Declares ds fss)
    (col : List Str)
    (hfit : ∀ r ∈ col, ∀ f ∈ fss.flatten ++ [(16, b)], 1 ≤ f.1 ∧ f.1 - 1 + f.2 ≤ r.length) :
    bitColumnValues instrument
      (ds ++ [{ name := some c!"NADIR_OFFSET_SIGN", startBit := some (s : Int), bits := some (b : Int) }]) col =
      .ok (col.map (fun r => (fss.flatten ++ [(16, b)]).map (fun f : Nat × Nat => field r f.1 f.2))) := by
  set last : BitDef := { name := some c!"NADIR_OFFSET_SIGN", startBit := some (s : Int), bits := some (b : Int) } with hlast
  have hall : List.Forall₂ Declares (ds ++ [last]) (fss ++ [[(s, b)]]) :=
    List.rel_append hdecl (.cons .plain .nil)
  have hbf := bitFields_eq _ _ hall
  unfold bitColumnValues bitStartAndSize
  have hsp : ∀ st, specialStarts instrument (ds ++ [last]) st = setLast st (some 16) := by
    intro st
    unfold specialStarts
    rw [if_pos (by rcases h with rfl | rfl <;> rfl), List.getLast?_concat]
    simp [hlast]
  have hne : ds ++ [last] ≠ [] := by simp
  revert hne
  generalize hg : ds ++ [last] = defs at *
  intro hne
  cases defs with
  | nil => exact absurd rfl hne
  | cons d0 ds0 =>
    simp only [hbf, hsp, List.map_map]
    unfold spliceColumn
    have e1 : setLast (List.map ((fun x : Option Int × Option Int => x.1) ∘ fun p : Nat × Nat => (some (p.1 : Int), some (p.2 : Int)))
        (fss ++ [[(s, b)]]).flatten) (some (16 : Int)) =
        ((fss.flatten ++ [(16, b)]).map (fun p : Nat × Nat => (p.1 : Int))).map some := by
      simp [setLast, Function.comp_def]
    have e2 : List.map ((fun x : Option Int × Option Int => x.2) ∘ fun p : Nat × Nat => (some (p.1 : Int), some (p.2 : Int)))
        (fss ++ [[(s, b)]]).flatten =
        ((fss.flatten ++ [(16, b)]).map (fun p : Nat × Nat => (p.2 : Int))).map some := by
      simp [Function.comp_def]
    rw [e1, e2, zeroIndex_some, allSome_some]
    simp only [List.map_map]
    congr 1
    apply List.map_congr_left
    intro r hr
    exact splitBits_fields _ r (hfit r hr)

/-- **C09 (tiling).** Fields that follow one another without gap reassemble to the bits they cover. -/
theorem C09_adjacent_fields_reassemble (s : Str) (sizes : List Nat) (p : Nat) (hp : 1 ≤ p)
    (fs : List (Nat × Nat)) (hsz : fs.map (·.2) = sizes)
    (hadj : ∀ i, (h : i < fs.length) → fs[i].1 = p + (sizes.take i).sum) :
    (fs.map (fun f => field s f.1 f.2)).flatten = field s p sizes.sum := by
  induction fs generalizing sizes p with
  | nil => subst hsz; simp [field]
  | cons f fs ih =>
    cases sizes with
    | nil => simp at hsz
    | cons n sizes =>
      simp only [List.map_cons, List.cons.injEq] at hsz
      obtain ⟨h0, hsz⟩ := hsz
      have hf := hadj 0 (by simp)
      simp at hf
      have := ih sizes (p + n) (by omega) hsz (by
        intro i hi
        have := hadj (i + 1) (by simp; omega)
        simp at this
        omega)
      rw [List.map_cons, List.flatten_cons, this, hf, h0, List.sum_cons]
      unfold field
      rw [List.take_add, List.drop_drop]
      congr 3
      omega

/-- **C09 (items).** The fields of an `ITEMS` definition follow one another without gap or overlap. -/
theorem C09_items_reassemble (s : Str) (start b n : Nat) (hp : 1 ≤ start) :
    (((List.range n).map (fun i => (start + i * b, b))).map (fun f => field s f.1 f.2)).flatten =
      field s start (n * b) := by
  have := C09_adjacent_fields_reassemble s (List.replicate n b) start hp
    ((List.range n).map (fun i => (start + i * b, b))) (by simp [List.map_const', Function.comp_def])
    (by
      intro i hi
      simp at hi
      simp [List.take_replicate, Nat.min_eq_left (Nat.le_of_lt hi)])
  simpa using this

example : bitColumnValues c!"X" [{ startBit := some 1, bits := some 3 }, { items := some 2, itemBits := some 2, startBit := some 4 }]
    [c!"10011010"] = .ok [[c!"100", c!"11", c!"01"]] := by
  rfl

end Verif.Bits
