/-
Lemmas about delimited tables: which column a field and its repetitions have, and how records are taken apart.
-/
import Verif.Lemmas.Pds4Table
import Verif.Lemmas.Pds4Values
import Verif.Spec.Pds4Delim

namespace Verif.Pds4Delim
open Verif.Py Verif.Bits Verif.Image Verif.Table.Spec Verif.ImageFile Verif.ImageFile.Spec Verif.Pds4Table Verif.Pds4Table.Spec
  Verif.Pds4Delim.Spec

/-! ### columns -/

theorem count_leaves (F : Forest) (gs : List Group) : (leaves gs F).length = count F := by
  induction F generalizing gs with
  | nil => rfl
  | field f F ih => simp only [leaves, count, List.length_cons, ih]; omega
  | group g inner F ih1 ih2 => simp only [leaves, count, List.length_append, ih1, ih2]

theorem numColumns_mul (F : Forest) (m : Nat) : numColumns m F = m * numColumns 1 F := by
  induction F generalizing m with
  | nil => simp [numColumns]
  | field f F ih => rw [numColumns, numColumns, ih m, Nat.mul_add, Nat.mul_one]
  | group g inner F ih1 ih2 =>
    rw [numColumns, numColumns, ih1 (m * _), ih1 (1 * _), ih2 m, Nat.mul_add, Nat.one_mul, Nat.mul_assoc]

theorem flatMap_length {α : Type} (R w : Nat) (f : Nat → List α) (h : ∀ k, (f k).length = w) :
    ((List.range R).flatMap f).length = R * w := by
  induction R with
  | zero => simp
  | succ R ih =>
    rw [List.range_succ, List.flatMap_append, List.length_append, ih]
    simp [h, Nat.succ_mul]

theorem flatMap_get {α : Type} (R w : Nat) (f : Nat → List α) (h : ∀ k, (f k).length = w) (k i : Nat) (hk : k < R) (hi : i < w) :
    ((List.range R).flatMap f)[k * w + i]? = (f k)[i]? := by
  induction R with
  | zero => omega
  | succ R ih =>
    rw [List.range_succ, List.flatMap_append]
    by_cases hkR : k < R
    · have hlt : k * w + i < R * w := by
        have : (k + 1) * w ≤ R * w := Nat.mul_le_mul_right _ hkR
        rw [Nat.add_mul] at this
        omega
      rw [List.getElem?_append_left (by rw [flatMap_length R w f h]; exact hlt)]
      exact ih hkR
    · have : k = R := by omega
      subst this
      rw [List.getElem?_append_right (by rw [flatMap_length k w f h]; omega), flatMap_length k w f h]
      simp

theorem slots_length (F : Forest) (n : Nat) (ks : List Nat) : (valueSlots n ks F).length = numColumns 1 F := by
  induction F generalizing n ks with
  | nil => rfl
  | field f F ih => simp only [valueSlots, numColumns, List.length_cons, ih]; omega
  | group g inner F ih1 ih2 =>
    simp only [valueSlots, numColumns, List.length_append, ih2]
    rw [flatMap_length _ (numColumns 1 inner) _ (fun k => ih1 _ _), numColumns_mul inner (1 * _), Nat.one_mul]

theorem offset_after (F : Forest) (k n : Nat) (h : n + count F ≤ k) : fieldOffset k n F = numColumns 1 F := by
  induction F generalizing n with
  | nil => rfl
  | field f F ih =>
    simp only [count] at h
    rw [fieldOffset, numColumns, if_neg (by omega), ih (n + 1) (by omega)]
  | group g inner F ih1 ih2 =>
    simp only [count] at h
    simp only [fieldOffset, numColumns]
    rw [if_neg (by omega), ih1 n (by omega), ih2 (n + count inner) (by omega), numColumns_mul inner (1 * _), Nat.one_mul, Nat.mul_comm]

theorem skip_out (F : Forest) (k n : Nat) (h : k < n ∨ n + count F ≤ k) : skipIn k n F = numColumns 1 F := by
  induction F generalizing n with
  | nil => rfl
  | field f F ih =>
    simp only [count] at h
    rw [skipIn, numColumns, if_pos (by omega), ih (n + 1) (by omega)]
  | group g inner F ih1 ih2 =>
    simp only [count] at h
    simp only [skipIn, numColumns]
    rw [ih1 n (by omega), ih2 (n + count inner) (by omega), numColumns_mul inner (1 * _), Nat.one_mul, Nat.mul_comm]

theorem skip_in (F : Forest) (n j : Nat) (gs gl : List Group) (f : Field) (h : (leaves gs F)[j]? = some (f, gl)) :
    ∃ gs', gl = gs ++ gs' ∧ skipIn (n + j) n F + prod (reps gs') = numColumns 1 F := by
  induction F generalizing n j gs with
  | nil => simp [leaves] at h
  | field f' F ih =>
    simp only [leaves] at h
    cases j with
    | zero =>
      simp only [List.getElem?_cons_zero, Option.some.injEq, Prod.mk.injEq] at h
      refine ⟨[], by simp [h.2], ?_⟩
      rw [skipIn, numColumns, skip_out F _ _ (.inl (by omega))]
      simp [reps, prod, Nat.add_comm]
    | succ j =>
      rw [List.getElem?_cons_succ] at h
      obtain ⟨gs', h1, h2⟩ := ih (n + 1) j gs h
      refine ⟨gs', h1, ?_⟩
      rw [skipIn, numColumns, if_pos (by omega)]
      rw [show n + 1 + j = n + (j + 1) by omega] at h2
      omega
  | group g inner F ih1 ih2 =>
    simp only [leaves] at h
    by_cases hj : j < count inner
    · rw [List.getElem?_append_left (by rw [count_leaves]; exact hj)] at h
      obtain ⟨gs', h1, h2⟩ := ih1 n j _ h
      refine ⟨g :: gs', by rw [h1]; simp, ?_⟩
      simp only [skipIn, numColumns]
      rw [skip_out F _ _ (.inl (by omega)), numColumns_mul inner (1 * _), Nat.one_mul, ← h2]
      simp only [reps, List.map_cons, prod]
      ring
    · rw [List.getElem?_append_right (by rw [count_leaves]; omega), count_leaves] at h
      obtain ⟨gs', h1, h2⟩ := ih2 (n + count inner) _ _ h
      refine ⟨gs', h1, ?_⟩
      simp only [skipIn, numColumns]
      rw [show n + count inner + (j - count inner) = n + j by omega] at h2
      rw [skip_out inner _ _ (.inr (by omega)), numColumns_mul inner (1 * _), Nat.one_mul, ← h2]
      ring

/-- the column of field number `k` for these repetitions of its groups -/
def column (k n : Nat) (F : Forest) (gs : List Group) (ks : List Nat) : Nat :=
  fieldOffset k n F + ravel (reps gs) ks + skipped (skipFactors k n F) ks

theorem column_slot (F : Forest) (n j : Nat) (gs gl : List Group) (f : Field) (h : (leaves gs F)[j]? = some (f, gl)) :
    ∃ gs', gl = gs ++ gs' ∧ ∀ ks, Within (reps gs') ks → ∀ pre, (valueSlots n pre F)[column (n + j) n F gs' ks]? = some (n + j, pre ++ ks) := by
  induction F generalizing n j gs with
  | nil => simp [leaves] at h
  | field f' F ih =>
    simp only [leaves] at h
    cases j with
    | zero =>
      simp only [List.getElem?_cons_zero, Option.some.injEq, Prod.mk.injEq] at h
      refine ⟨[], by simp [h.2], ?_⟩
      intro ks hks pre
      cases hks
      simp [column, fieldOffset, skipFactors, skipped, valueSlots, reps, ravel]
    | succ j =>
      rw [List.getElem?_cons_succ] at h
      obtain ⟨gs', h1, h2⟩ := ih (n + 1) j gs h
      refine ⟨gs', h1, ?_⟩
      intro ks hks pre
      have := h2 ks hks pre
      rw [show n + 1 + j = n + (j + 1) by omega] at this
      unfold column at this ⊢
      rw [fieldOffset, skipFactors, if_neg (by omega), if_neg (by omega), valueSlots]
      rw [show ∀ a b c : Nat, 1 + a + b + c = (a + b + c) + 1 by intros; omega, List.getElem?_cons_succ]
      exact this
  | group g inner F ih1 ih2 =>
    simp only [leaves] at h
    by_cases hj : j < count inner
    · rw [List.getElem?_append_left (by rw [count_leaves]; exact hj)] at h
      obtain ⟨gs', h1, h2⟩ := ih1 n j _ h
      obtain ⟨gs'', h3, h4⟩ := skip_in inner n j _ _ _ h
      have hgg : gs'' = gs' := by
        rw [h1] at h3
        exact (List.append_cancel_left h3).symm
      subst hgg
      refine ⟨g :: gs'', by rw [h1]; simp, ?_⟩
      intro ks hks pre
      cases hks with
      | @cons _ k _ ks hk hks =>
        have hs := h2 ks hks (pre ++ [k])
        have hlt : column (n + j) n inner gs'' ks < numColumns 1 inner := by
          have := (List.getElem?_eq_some_iff.1 hs).1
          rwa [slots_length] at this
        have e : column (n + j) n (.group g inner F) (g :: gs'') (k :: ks) = k * numColumns 1 inner + column (n + j) n inner gs'' ks := by
          unfold column
          simp only [fieldOffset, skipFactors]
          rw [if_pos ⟨by omega, by omega⟩, if_pos ⟨by omega, by omega⟩, ← h4]
          simp only [reps, List.map_cons, ravel, skipped]
          ring
        have hk' : k < g.repetitions := hk
        rw [e, valueSlots, List.getElem?_append_left, flatMap_get _ (numColumns 1 inner) _ (fun _ => slots_length _ _ _) _ _ hk' hlt, hs]
        · simp
        · rw [flatMap_length _ (numColumns 1 inner) _ (fun _ => slots_length _ _ _)]
          have : (k + 1) * numColumns 1 inner ≤ g.repetitions * numColumns 1 inner := Nat.mul_le_mul_right _ hk'
          rw [Nat.add_mul] at this
          omega
    · rw [List.getElem?_append_right (by rw [count_leaves]; omega), count_leaves] at h
      obtain ⟨gs', h1, h2⟩ := ih2 (n + count inner) _ _ h
      refine ⟨gs', h1, ?_⟩
      intro ks hks pre
      have hs := h2 ks hks pre
      rw [show n + count inner + (j - count inner) = n + j by omega] at hs
      have e : column (n + j) n (.group g inner F) gs' ks = g.repetitions * numColumns 1 inner + column (n + j) (n + count inner) F gs' ks := by
        unfold column
        simp only [fieldOffset, skipFactors]
        rw [if_neg (by omega), if_neg (by omega), offset_after inner _ _ (by omega)]
        ring
      rw [e, valueSlots, List.getElem?_append_right, flatMap_length _ (numColumns 1 inner) _ (fun _ => slots_length _ _ _), count_leaves]
      · rw [Nat.add_sub_cancel_left]
        exact hs
      · rw [flatMap_length _ (numColumns 1 inner) _ (fun _ => slots_length _ _ _)]
        omega

theorem groupColumns_eq (k n : Nat) (F : Forest) (gs : List Group) :
    groupColumns (fieldOffset k n F) (reps gs) (skipFactors k n F) = (positions (reps gs)).map (column k n F gs) := by
  unfold groupColumns
  refine List.ext_getElem? (fun i => ?_)
  rw [List.getElem?_map, List.getElem?_map, List.getElem?_zipIdx]
  cases h : (positions (reps gs))[i]? with
  | none => rfl
  | some ks =>
    have := congrArg (·[i]?) (positions_ravel (reps gs))
    simp only [List.getElem?_map, h, Option.map_some] at this
    have hlt : i < prod (reps gs) := by
      have := (List.getElem?_eq_some_iff.1 h).1
      rwa [positions_length] at this
    rw [List.getElem?_range hlt, Option.some.injEq] at this
    simp only [Option.map_some, column, this, Nat.zero_add]

/-! ### pieces -/

theorem join_intercalate (sep : Bytes) (ws : List Bytes) : joinBytes sep ws = List.intercalate sep ws := by
  induction ws with
  | nil => rfl
  | cons w ws ih =>
    cases ws with
    | nil => simp [joinBytes, List.intercalate]
    | cons w' ws =>
      rw [joinBytes, ih]
      · simp [List.intercalate]
      · simp

theorem join_cons (sep w : Bytes) (ws : List Bytes) (h : ws ≠ []) : joinBytes sep (w :: ws) = w ++ sep ++ joinBytes sep ws := by
  cases ws with
  | nil => exact absurd rfl h
  | cons w' ws => rfl

theorem split_parts (d : UInt8) (s : Bytes) : joinBytes [d] (splitByte d s) = s ∧ ∀ w ∈ splitByte d s, d ∉ w := by
  induction s with
  | nil => simp [splitByte, joinBytes]
  | cons c s ih =>
    rw [splitByte]
    by_cases hc : c = d
    · rw [if_pos hc, join_cons _ _ _ (splitByte_ne _ _), ih.1]
      refine ⟨by simp [hc], ?_⟩
      intro w hw
      rcases List.mem_cons.1 hw with rfl | hw
      · simp
      · exact ih.2 w hw
    · rw [if_neg hc]
      cases h : splitByte d s with
      | nil => exact absurd h (splitByte_ne _ _)
      | cons w ws =>
        rw [h] at ih
        refine ⟨?_, ?_⟩
        · rw [← ih.1]
          cases ws with
          | nil => rfl
          | cons w' ws => rfl
        · intro u hu
          rcases List.mem_cons.1 hu with rfl | hu
          · rw [List.mem_cons, not_or]
            exact ⟨fun e => hc e.symm, ih.2 w (by simp)⟩
          · exact ih.2 u (by simp [hu])

theorem split_append (d : UInt8) (a b : Bytes) : splitByte d (a ++ d :: b) = splitByte d a ++ splitByte d b := by
  induction a with
  | nil => simp [splitByte]
  | cons c a ih =>
    rw [List.cons_append, splitByte, splitByte]
    by_cases hc : c = d
    · rw [if_pos hc, if_pos hc, ih]; rfl
    · rw [if_neg hc, if_neg hc, ih]
      cases h : splitByte d a with
      | nil => exact absurd h (splitByte_ne _ _)
      | cons w ws => rfl

/-- the pieces of text in UTF-8 are in UTF-8 -/
theorem pieces_decode (E : Env) (hE : CutsAscii E) (d : UInt8) (hd : d.toNat < 128) (ws : List Bytes) (h : E.utf8 (joinBytes [d] ws) ≠ none) :
    ∀ w ∈ ws, E.utf8 w ≠ none := by
  induction ws with
  | nil => simp
  | cons w ws ih =>
    cases ws with
    | nil =>
      intro u hu
      rw [List.mem_singleton] at hu
      subst hu
      exact h
    | cons w' ws =>
      rw [join_cons _ _ _ (by simp), List.append_assoc, List.singleton_append] at h
      obtain ⟨h1, h2⟩ := hE _ _ _ hd h
      intro u hu
      rcases List.mem_cons.1 hu with rfl | hu
      · exact h1
      · exact ih h2 u hu

/-! ### quotes -/

theorem findIdx_mid (mid later : List Bytes) (x : Bytes) (hm : ∀ w ∈ mid, 34 ∉ w) (hx : 34 ∈ x) :
    (mid ++ x :: later).findIdx? (fun v => v.contains 34) = some mid.length := by
  induction mid with
  | nil => simp [List.findIdx?_cons, hx]
  | cons w mid ih =>
    rw [List.cons_append, List.findIdx?_cons]
    rw [if_neg (by simpa using hm w (by simp)), ih (fun w hw => hm w (by simp [hw]))]
    rfl

/-- a value between quotes in pieces: the first one, those in the middle and the last one -/
theorem quoted_pieces (d : UInt8) (hd : d ≠ 34) (v : Bytes) (hv : 34 ∉ v) :
    splitByte d (34 :: (v ++ [34])) = [34 :: (v ++ [34])] ∨
    ∃ a mid b, splitByte d (34 :: (v ++ [34])) = (34 :: a) :: (mid ++ [b ++ [34]]) ∧ 34 ∉ a ∧ (∀ w ∈ mid, 34 ∉ w) := by
  obtain ⟨h1, h2⟩ := split_parts d v
  have h3 : ∀ w ∈ splitByte d v, 34 ∉ w := by
    have : ∀ ws : List Bytes, (34 : UInt8) ∉ joinBytes [d] ws → ∀ w ∈ ws, 34 ∉ w := by
      intro ws
      induction ws with
      | nil => simp
      | cons w ws ih =>
        cases ws with
        | nil => simp [joinBytes]
        | cons w' ws =>
          rw [join_cons _ _ _ (by simp)]
          simp only [List.mem_append, not_or]
          rintro ⟨⟨h1, -⟩, h2⟩ u hu
          rcases List.mem_cons.1 hu with rfl | hu
          · exact h1
          · exact ih h2 u hu
    exact this _ (by rw [h1]; exact hv)
  cases h : splitByte d v with
  | nil => exact absurd h (splitByte_ne _ _)
  | cons a ws =>
    rw [h] at h1 h2 h3
    by_cases hws : ws = []
    · subst hws
      left
      have e : a = v := by simpa [joinBytes] using h1
      subst e
      refine splitByte_none _ _ ?_
      have := h2 a (by simp)
      simp only [List.mem_cons, List.mem_append, List.not_mem_nil, or_false, not_or]
      exact ⟨hd, this, hd⟩
    · right
      obtain ⟨mid, b, rfl⟩ : ∃ mid b, ws = mid ++ [b] := ⟨ws.dropLast, ws.getLast hws, (List.dropLast_append_getLast hws).symm⟩
      refine ⟨a, mid, b, ?_, h3 a (by simp), fun w hw => h3 w (by simp [hw])⟩
      have hj : ∀ (mid : List Bytes), joinBytes [d] (mid ++ [b ++ [34]]) = joinBytes [d] (mid ++ [b]) ++ [34] := by
        intro mid
        induction mid with
        | nil => rfl
        | cons w mid ih =>
          rw [List.cons_append, List.cons_append, join_cons _ _ _ (by simp), join_cons _ _ _ (by simp), ih]
          simp
      have e : 34 :: (v ++ [34]) = joinBytes [d] ((34 :: a) :: (mid ++ [b ++ [34]])) := by
        rw [join_cons _ _ _ (by simp), hj, ← h1, join_cons _ _ _ (by simp)]
        simp
      rw [e]
      refine split_join _ _ (by simp) ?_
      intro w hw
      simp only [List.mem_cons, List.mem_append, List.not_mem_nil, or_false] at hw
      rcases hw with rfl | hw | rfl
      · have := h2 a (by simp)
        simp only [List.mem_cons, not_or]
        exact ⟨hd, this⟩
      · exact h2 w (by simp [hw])
      · have := h2 b (by simp)
        simp only [List.mem_append, List.mem_cons, List.not_mem_nil, or_false, not_or]
        exact ⟨this, hd⟩

theorem quoted_here (E : Env) (p0 : Bytes) (ps later : List Bytes) (v : Bytes) (hv : 34 ∉ v)
    (h : (p0 :: ps = [34 :: (v ++ [34])]) ∨ ∃ a mid b, p0 :: ps = (34 :: a) :: (mid ++ [b ++ [34]]) ∧ 34 ∉ a ∧ (∀ w ∈ mid, 34 ∉ w))
    (hE : ∀ w ∈ p0 :: ps, E.utf8 w ≠ none) : quotedHere E p0 (ps ++ later) = .ok (some ps.length) := by
  rcases h with h | ⟨a, mid, b, h, ha, hm⟩
  · rw [List.cons.injEq] at h
    obtain ⟨rfl, rfl⟩ := h
    have h1 := hE _ (List.mem_cons_self)
    unfold quotedHere
    rw [if_neg (fun c => h1 c.2), if_neg (by simp)]
    have : nextQuote (34 :: (v ++ [34])) ([] ++ later) = some 0 := by
      unfold nextQuote
      rw [if_pos (by simp)]
    rw [this]
    simp only [List.getElem?_cons_zero]
    rw [if_neg h1]
    rw [if_pos (by rw [← List.cons_append, List.getLast?_concat])]
    rfl
  · rw [List.cons.injEq] at h
    obtain ⟨rfl, rfl⟩ := h
    have h1 := hE _ (List.mem_cons_self)
    have h2 := hE (b ++ [34]) (by simp)
    unfold quotedHere
    rw [if_neg (fun c => h1 c.2), if_neg (by simp)]
    have : nextQuote (34 :: a) (mid ++ [b ++ [34]] ++ later) = some (mid.length + 1) := by
      unfold nextQuote
      rw [if_neg (by simpa using ha), List.append_assoc, List.singleton_append, findIdx_mid _ _ _ hm (by simp)]
      rfl
    rw [this]
    simp only [List.getElem?_cons_succ]
    rw [List.append_assoc, List.getElem?_append_right (Nat.le_refl _)]
    simp only [Nat.sub_self, List.singleton_append, List.getElem?_cons_zero]
    rw [if_neg h2, if_pos (by simp)]
    simp

theorem unquote_ok (E : Env) (d : UInt8) (hd : d ≠ 34) (values tokens : List Bytes) (h : List.Forall₂ (Written d) values tokens)
    (n : Nat) (hn : (tokens.flatMap (splitByte d)).length ≤ n) (hE : ∀ w ∈ tokens.flatMap (splitByte d), E.utf8 w ≠ none) :
    unquote E d n (tokens.flatMap (splitByte d)) = .ok values := by
  induction h generalizing n with
  | nil => simp [unquote]
  | @cons v t vs ts hw hr ih =>
    rw [List.flatMap_cons] at hn hE ⊢
    cases hw with
    | plain h1 h2 =>
      rw [splitByte_none _ _ h1] at hn hE ⊢
      simp only [List.singleton_append, List.length_cons] at hn hE ⊢
      cases n with
      | zero => omega
      | succ n =>
        have hq : quotedHere E v (ts.flatMap (splitByte d)) = .ok none := by
          unfold quotedHere
          rw [if_neg (fun c => hE v (by simp) c.2), if_pos h2]
        rw [unquote, hq]
        simp only
        rw [ih n (by omega) (fun w hw => hE w (by simp [hw]))]
    | quoted hv =>
      have hp := quoted_pieces d hd v hv
      have hj := (split_parts d (34 :: (v ++ [34]))).1
      cases hs : splitByte d (34 :: (v ++ [34])) with
      | nil => exact absurd hs (splitByte_ne _ _)
      | cons p0 ps =>
        rw [hs] at hn hE hp hj
        simp only [List.cons_append, List.length_cons, List.length_append] at hn hE ⊢
        cases n with
        | zero => omega
        | succ n =>
          have hq := quoted_here E p0 ps (ts.flatMap (splitByte d)) v hv hp (fun w hw => hE w (by
            rcases List.mem_cons.1 hw with h | h
            · simp [h]
            · simp [h]))
          rw [unquote, hq]
          simp only
          rw [List.drop_left, ih n (by omega) (fun w hw => hE w (by
            rw [List.mem_cons, List.mem_append]; exact .inr (.inr hw)))]
          simp only
          rw [List.take_left, hj]
          simp

theorem split_tokens (d : UInt8) (tokens : List Bytes) (h : tokens ≠ []) : splitByte d (joinBytes [d] tokens) = tokens.flatMap (splitByte d) := by
  induction tokens with
  | nil => exact absurd rfl h
  | cons t ts ih =>
    cases ts with
    | nil => simp [joinBytes]
    | cons t' ts =>
      rw [join_cons _ _ _ (by simp), List.append_assoc, List.singleton_append, split_append, ih (by simp), ← List.flatMap_cons]

theorem flatMap_join (d : UInt8) (tokens : List Bytes) (h : tokens ≠ []) : joinBytes [d] (tokens.flatMap (splitByte d)) = joinBytes [d] tokens := by
  rw [← split_tokens d tokens h, (split_parts d _).1]

/-- what is made of a record: its values with delimiters between them -/
def rowOf (d : UInt8) (values : List Bytes) : Row := ⟨joinBytes [d] values, startsFrom 0 values, stopFrom 0 values⟩

theorem parse_ok (E : Env) (hE : CutsAscii E) (d : UInt8) (hd : d ≠ 34) (hd' : d.toNat < 128) (columns : Nat) (values : List Bytes) (text : Bytes)
    (hne : values ≠ []) (hl : values.length ≤ columns + 1) (ht : RecordText d values text) (hu : 34 ∈ text → E.utf8 text ≠ none) :
    parseRecord E d columns text = .ok (rowOf d values) := by
  obtain ⟨tokens, hw, rfl⟩ := ht
  rw [← join_intercalate] at hu ⊢
  have htn : tokens ≠ [] := by
    rintro rfl
    cases hw
    exact hne rfl
  unfold parseRecord
  simp only
  by_cases hq : 34 ∈ joinBytes [d] tokens
  · rw [if_pos (by simpa using hq), split_tokens d tokens htn]
    have hdec := pieces_decode E hE d hd' (tokens.flatMap (splitByte d)) (by rw [flatMap_join d tokens htn]; exact hu hq)
    rw [unquote_ok E d hd values tokens hw _ (Nat.le_refl _) hdec]
    simp only
    rw [if_neg (by omega)]
    rfl
  · rw [if_neg (by simpa using hq)]
    have hsame : tokens = values ∧ ∀ v ∈ values, d ∉ v := by
      clear hu htn hne hl
      induction hw with
      | nil => simp
      | @cons v t vs ts h1 h2 ih =>
        have hh : 34 ∉ t ∧ 34 ∉ joinBytes [d] ts := by
          cases ts with
          | nil => simpa [joinBytes] using hq
          | cons t' ts =>
            rw [join_cons _ _ _ (by simp)] at hq
            simp only [List.mem_append, not_or] at hq
            exact ⟨hq.1.1, hq.2⟩
        obtain ⟨e, e2⟩ := ih hh.2
        cases h1 with
        | plain h3 h4 =>
          refine ⟨by rw [e], ?_⟩
          intro w hw
          rcases List.mem_cons.1 hw with rfl | hw
          · exact h3
          · exact e2 w hw
        | quoted h3 => exact absurd hh.1 (by simp)
    obtain ⟨rfl, hv⟩ := hsame
    rw [split_join d tokens hne hv, if_neg (by omega)]
    rfl

/-! ### values within a record -/

/-- where value number `c` starts -/
def startAt (values : List Bytes) (c : Nat) : Nat := ((values.take c).map (fun v => v.length + 1)).sum

theorem starts_get (values : List Bytes) (next c : Nat) (h : c < values.length) : (startsFrom next values)[c]? = some (next + startAt values c) := by
  induction values generalizing next c with
  | nil => simp at h
  | cons v vs ih =>
    cases c with
    | zero => simp [startsFrom, startAt]
    | succ c =>
      rw [startsFrom, List.getElem?_cons_succ, ih _ _ (by simpa using h)]
      simp [startAt]
      omega

theorem starts_length (values : List Bytes) (next : Nat) : (startsFrom next values).length = values.length := by
  induction values generalizing next with
  | nil => rfl
  | cons v vs ih => simp [startsFrom, ih]

theorem stop_eq (values : List Bytes) (next : Nat) : stopFrom next values = next + startAt values values.length := by
  unfold stopFrom
  induction values generalizing next with
  | nil => rfl
  | cons v vs ih =>
    rw [List.foldl_cons, ih]
    simp [startAt]
    omega

theorem cell_text (d : UInt8) (values : List Bytes) (c : Nat) (v : Bytes) (h : values[c]? = some v) :
    ((joinBytes [d] values).take (startAt values (c + 1) - 1)).drop (startAt values c) = v := by
  induction values generalizing c with
  | nil => simp at h
  | cons w vs ih =>
    cases c with
    | zero =>
      simp only [List.getElem?_cons_zero, Option.some.injEq] at h
      subst h
      have : startAt (w :: vs) 1 - 1 = w.length := by simp [startAt]
      rw [this]
      have h0 : startAt (w :: vs) 0 = 0 := by simp [startAt]
      rw [h0, List.drop_zero]
      cases vs with
      | nil => simp [joinBytes]
      | cons w' vs => rw [join_cons _ _ _ (by simp), List.append_assoc, List.take_left]
    | succ c =>
      rw [List.getElem?_cons_succ] at h
      have hne : vs ≠ [] := by rintro rfl; simp at h
      have h1 : ∀ i, startAt (w :: vs) (i + 1) = w.length + 1 + startAt vs i := by intro i; simp [startAt]
      have hpos : 1 ≤ startAt vs (c + 1) := by
        cases vs with
        | nil => exact absurd rfl hne
        | cons w' vs => simp [startAt]; omega
      rw [h1, h1, join_cons _ _ _ hne]
      have hl : (w ++ [d]).length = w.length + 1 := by simp
      rw [show w.length + 1 + startAt vs (c + 1) - 1 = (w ++ [d]).length + (startAt vs (c + 1) - 1) by omega, List.take_length_add_append,
        ← hl, List.drop_length_add_append]
      exact ih c h

theorem startByte_eq (mem : Memory) (d : UInt8) (values : List Bytes) (r c : Nat) (h : c ≤ values.length) :
    startByte mem values.length r (rowOf d values) c = startAt values c := by
  unfold startByte
  by_cases hc : c = values.length
  · rw [if_pos hc, hc]
    simp [rowOf, stop_eq]
  · rw [if_neg hc]
    have := starts_get values 0 c (by omega)
    simp [rowOf, List.getD, this]

/-- the record, taken apart, has these values -/
def RowLike (d : UInt8) (columns : Nat) (values : List Bytes) (row : Row) : Prop :=
  row.text = joinBytes [d] values ∧ ∀ mem r c, c ≤ columns → startByte mem columns r row c = startAt values c

theorem rowOf_like (d : UInt8) (values : List Bytes) : RowLike d values.length values (rowOf d values) :=
  ⟨rfl, fun mem r c hc => startByte_eq mem d values r c hc⟩

/-- one value too many is taken together with the last one -/
theorem extra_like (d : UInt8) (init : List Bytes) (a b : Bytes) :
    RowLike d (init.length + 1) (init ++ [a ++ d :: b]) (rowOf d (init ++ [a, b])) := by
  refine ⟨?_, ?_⟩
  · simp only [rowOf]
    induction init with
    | nil => simp [joinBytes]
    | cons w init ih => rw [List.cons_append, List.cons_append, join_cons _ _ _ (by simp), join_cons _ _ _ (by simp), ih]
  · intro mem r c hc
    unfold startByte
    by_cases hcN : c = init.length + 1
    · rw [if_pos hcN, hcN]
      simp only [rowOf, stop_eq]
      simp [startAt]
      omega
    · rw [if_neg hcN]
      have := starts_get (init ++ [a, b]) 0 c (by simp; omega)
      simp only [rowOf, List.getD_eq_getElem?_getD, this, Option.getD_some, Nat.zero_add]
      unfold startAt
      rw [List.take_append_of_le_length (by omega), List.take_append_of_le_length (by omega)]

theorem cellAt_ok (mem : Memory) (d : UInt8) (rows : List (List Bytes)) (prows : List Row) (columns : Nat)
    (hp : List.Forall₂ (RowLike d columns) rows prows) (freed : List Nat) (r c : Nat) (row : List Bytes) (v : Bytes)
    (hr : rows[r]? = some row) (hl : row.length = columns) (hv : row[c]? = some v) (h1 : c ∉ freed) (h2 : c + 1 ∉ freed) :
    cellAt mem columns prows freed r c = .ok v := by
  subst hl
  have hc : c < row.length := (List.getElem?_eq_some_iff.1 hv).1
  obtain ⟨hr1, hr2⟩ := List.getElem?_eq_some_iff.1 hr
  have hr3 : r < prows.length := by rw [← List.Forall₂.length_eq hp]; exact hr1
  have hlike := (List.forall₂_iff_get.1 hp).2 r hr1 hr3
  simp only [List.get_eq_getElem, hr2] at hlike
  unfold cellAt
  rw [if_neg (by tauto), List.getElem?_eq_getElem hr3]
  simp only
  rw [hlike.2 mem r (c + 1) (by omega), hlike.2 mem r c (by omega), hlike.1]
  exact congrArg _ (cell_text d row c v hv)

/-! ### records -/

theorem delim_ahead (R : RecordDelim) (t more : Bytes) (hne : t ≠ []) (h : ¬ R.bytes <:+: t) : R.bytes.isPrefixOf (t ++ R.bytes ++ more) = false := by
  rw [Bool.eq_false_iff]
  intro c
  rw [List.isPrefixOf_iff_prefix] at c
  cases t with
  | nil => exact hne rfl
  | cons a t =>
    cases R with
    | lf =>
      obtain ⟨u, hu⟩ := c
      simp only [RecordDelim.bytes, List.cons_append, List.nil_append, List.cons.injEq] at hu
      exact h ⟨[], t, by simp [RecordDelim.bytes, hu.1]⟩
    | crlf =>
      obtain ⟨u, hu⟩ := c
      cases t with
      | nil => simp [RecordDelim.bytes] at hu
      | cons b t =>
        simp only [RecordDelim.bytes, List.cons_append, List.nil_append, List.cons.injEq] at hu
        exact h ⟨[], t, by simp [RecordDelim.bytes, hu.1, hu.2.1]⟩

theorem delim_none (R : RecordDelim) (t : Bytes) (h : ¬ R.bytes <:+: t) : R.bytes.isPrefixOf t = false := by
  rw [Bool.eq_false_iff]
  intro c
  rw [List.isPrefixOf_iff_prefix] at c
  exact h c.isInfix

theorem split_last (R : RecordDelim) (t : Bytes) (h : ¬ R.bytes <:+: t) (n : Nat) (seen : Bytes) : splitOn R.bytes n seen t = [seen ++ t] := by
  induction t generalizing n seen with
  | nil => cases n <;> simp [splitOn]
  | cons c t ih =>
    cases n with
    | zero => rfl
    | succ n =>
      rw [splitOn, if_neg (by rw [delim_none R _ h]; simp), ih (fun hc => h (hc.trans (List.suffix_cons c t).isInfix))]
      simp

theorem split_record (R : RecordDelim) (t more : Bytes) (h : ¬ R.bytes <:+: t) (n : Nat) (hn : (t ++ R.bytes ++ more).length ≤ n) (seen : Bytes) :
    ∃ m, more.length ≤ m ∧ splitOn R.bytes n seen (t ++ R.bytes ++ more) = (seen ++ t) :: splitOn R.bytes m [] more := by
  induction t generalizing n seen with
  | nil =>
    rw [List.nil_append] at hn ⊢
    have hl : 1 ≤ R.bytes.length := by cases R <;> decide
    rw [List.length_append] at hn
    cases n with
    | zero => omega
    | succ n =>
      cases hs : R.bytes ++ more with
      | nil =>
        have := congrArg List.length hs
        simp at this
        rw [this.1] at hl
        simp at hl
      | cons c cs =>
        refine ⟨n, by omega, ?_⟩
        rw [splitOn, ← hs, if_pos (by rw [List.isPrefixOf_iff_prefix]; exact List.prefix_append _ _), List.drop_left]
        simp
  | cons c t ih =>
    have hp := delim_ahead R (c :: t) more (by simp) h
    simp only [List.cons_append, List.length_cons] at hn hp ⊢
    cases n with
    | zero => omega
    | succ n =>
      obtain ⟨m, h1, h2⟩ := ih (fun hc => h (hc.trans (List.suffix_cons c t).isInfix)) n (by omega) (seen ++ [c])
      refine ⟨m, h1, ?_⟩
      rw [splitOn, if_neg (by rw [hp]; simp), h2]
      simp

theorem split_lines (R : RecordDelim) (texts : List Bytes) (hne : texts ≠ []) (h : ∀ t ∈ texts, ¬ R.bytes <:+: t) (b : Bytes) (hb : Lines R.bytes texts b)
    (n : Nat) (hn : b.length ≤ n) : (splitOn R.bytes n [] b).take texts.length = texts := by
  unfold Lines at hb
  rw [← join_intercalate] at hb
  induction texts generalizing b n with
  | nil => exact absurd rfl hne
  | cons t ts ih =>
    have ht := h t (by simp)
    by_cases hts : ts = []
    · subst hts
      simp only [joinBytes] at hb
      rcases hb with rfl | ⟨more, rfl⟩
      · rw [split_last R _ ht]; rfl
      · obtain ⟨m, -, h2⟩ := split_record R t more ht n hn []
        rw [h2]; rfl
    · rw [join_cons _ _ _ hts] at hb
      obtain ⟨more, rfl, hm⟩ : ∃ more, b = t ++ R.bytes ++ more ∧ (more = joinBytes R.bytes ts ∨ ∃ x, more = joinBytes R.bytes ts ++ R.bytes ++ x) := by
        rcases hb with rfl | ⟨x, rfl⟩
        · exact ⟨_, rfl, .inl rfl⟩
        · exact ⟨joinBytes R.bytes ts ++ R.bytes ++ x, by simp, .inr ⟨x, rfl⟩⟩
      obtain ⟨m, h1, h2⟩ := split_record R t more ht n hn []
      rw [h2, List.length_cons, List.take_succ_cons, ih hts (fun t ht => h t (by simp [ht])) more hm m h1]
      rfl

theorem data_region (l : Label) (file : Bytes) (h : l.objectLength ≠ some 0 ∧ l.maxRecord ≠ some 0) (hr : 1 ≤ l.records) :
    dataBytes l file = region l file := by
  unfold dataBytes stopByte region
  obtain ⟨h1, h2⟩ := h
  cases ho : l.objectLength with
  | some n =>
    rw [ho] at h1
    have : n ≠ 0 := fun c => h1 (by rw [c])
    simp only
    rw [if_pos (by omega), Nat.add_sub_cancel_left]
  | none =>
    cases hm : l.maxRecord with
    | some m =>
      rw [hm] at h2
      have hm0 : m ≠ 0 := fun c => h2 (by rw [c])
      have : 0 < l.records * m := Nat.mul_pos hr (by omega)
      simp only
      rw [if_pos (by omega), Nat.add_sub_cancel_left]
    | none => rfl

end Verif.Pds4Delim
