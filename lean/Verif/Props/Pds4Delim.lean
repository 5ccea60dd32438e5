/-
C74: delimited tables.
-/
import Verif.Lemmas.Pds4Delim
import Verif.Props.Pds4Table

namespace Verif.Pds4Delim
open Verif.Py Verif.Bits Verif.Image Verif.Table.Spec Verif.ImageFile Verif.ImageFile.Spec Verif.Pds4Table Verif.Pds4Table.Spec
  Verif.Pds4Delim.Spec

/-! ### which columns are given up -/

theorem slot_numbers (F : Forest) (n : Nat) (pre : List Nat) : ∀ s ∈ valueSlots n pre F, n ≤ s.1 ∧ s.1 < n + count F := by
  induction F generalizing n pre with
  | nil => simp [valueSlots]
  | field f F ih =>
    intro s hs
    simp only [valueSlots, List.mem_cons] at hs
    simp only [count]
    rcases hs with rfl | hs
    · simp only; omega
    · have := ih _ _ s hs
      omega
  | group g inner F ih1 ih2 =>
    intro s hs
    simp only [valueSlots, List.mem_append, List.mem_flatMap] at hs
    simp only [count]
    rcases hs with ⟨k, -, hs⟩ | hs
    · have := ih1 _ _ s hs
      omega
    · have := ih2 _ _ s hs
      rw [count_leaves] at this
      omega

/-- what comes before a field that is in no group belongs to fields with smaller numbers -/
theorem before_plain (F : Forest) (n j : Nat) (gs : List Group) (f : Field) (h : (leaves gs F)[j]? = some (f, gs)) (pre : List Nat) :
    ∀ i < fieldOffset (n + j) n F, ∀ s, (valueSlots n pre F)[i]? = some s → s.1 < n + j := by
  induction F generalizing n j pre with
  | nil => simp [leaves] at h
  | field f' F ih =>
    intro i hi s hs
    cases j with
    | zero => simp [fieldOffset] at hi
    | succ j =>
      simp only [leaves, List.getElem?_cons_succ] at h
      rw [fieldOffset, if_neg (by omega)] at hi
      rw [valueSlots] at hs
      cases i with
      | zero =>
        simp only [List.getElem?_cons_zero, Option.some.injEq] at hs
        rw [← hs]
        simp only; omega
      | succ i =>
        rw [List.getElem?_cons_succ] at hs
        rw [show n + (j + 1) = n + 1 + j by omega] at hi ⊢
        exact ih (n + 1) j h pre i (by omega) s hs
  | group g inner F ih1 ih2 =>
    intro i hi s hs
    simp only [leaves] at h
    by_cases hj : j < count inner
    · rw [List.getElem?_append_left (by rw [count_leaves]; exact hj)] at h
      obtain ⟨gs', h1, -⟩ := skip_in inner n j _ _ _ h
      have := congrArg List.length h1
      simp at this
    · rw [List.getElem?_append_right (by rw [count_leaves]; omega), count_leaves] at h
      simp only [fieldOffset] at hi
      rw [if_neg (by omega), offset_after inner _ _ (by omega), Nat.mul_comm] at hi
      rw [valueSlots] at hs
      have hlen := flatMap_length g.repetitions (numColumns 1 inner) (fun k => valueSlots n (pre ++ [k]) inner) (fun _ => slots_length _ _ _)
      by_cases hi' : i < g.repetitions * numColumns 1 inner
      · rw [List.getElem?_append_left (by omega)] at hs
        have hm := List.mem_of_getElem? hs
        rw [List.mem_flatMap] at hm
        obtain ⟨k, -, hm⟩ := hm
        have := slot_numbers _ _ _ s hm
        omega
      · rw [List.getElem?_append_right (by omega), hlen, count_leaves] at hs
        have := ih2 (n + count inner) _ h pre (i - g.repetitions * numColumns 1 inner) (by
          rw [show n + count inner + (j - count inner) = n + j by omega]
          omega) s hs
        omega

/-- the columns given up belong to the fields before field `m`, and so do the columns before them -/
def Freed (S : List (Nat × List Nat)) (m : Nat) (freed : List Nat) : Prop :=
  ∀ c ∈ freed, (∀ s, S[c]? = some s → s.1 < m) ∧ (c = 0 ∨ ∀ s, S[c - 1]? = some s → s.1 < m)

theorem Freed.mono {S : List (Nat × List Nat)} {m : Nat} {freed : List Nat} (h : Freed S m freed) : Freed S (m + 1) freed := by
  intro c hc
  obtain ⟨h1, h2⟩ := h c hc
  refine ⟨fun s hs => Nat.lt_succ_of_lt (h1 s hs), h2.imp id (fun h2 s hs => Nat.lt_succ_of_lt (h2 s hs))⟩

theorem freeGroup_ok (S : List (Nat × List Nat)) (m : Nat) (cols freed : List Nat) (h : Freed S (m + 1) freed)
    (hc : ∀ c ∈ cols, ∀ s, S[c]? = some s → s.1 = m) : Freed S (m + 1) (freeGroup cols freed) := by
  have : ∀ rest : List Nat, (∀ c ∈ rest, c ∈ cols) → ∀ freed, Freed S (m + 1) freed → Freed S (m + 1)
      (rest.foldl (fun freed c => if c = 0 ∨ c - 1 ∈ cols ∨ c - 1 ∈ freed then c :: freed else freed) freed) := by
    intro rest
    induction rest with
    | nil => intro _ freed h; exact h
    | cons c rest ih =>
      intro hr freed h
      rw [List.foldl_cons]
      refine ih (fun c hc => hr c (by simp [hc])) _ ?_
      by_cases hcond : c = 0 ∨ c - 1 ∈ cols ∨ c - 1 ∈ freed
      · rw [if_pos hcond]
        intro d hd
        rcases List.mem_cons.1 hd with rfl | hd
        · refine ⟨fun s hs => by rw [hc d (hr d (by simp)) s hs]; omega, ?_⟩
          rcases hcond with h0 | h1 | h2
          · exact .inl h0
          · exact .inr (fun s hs => by rw [hc _ h1 s hs]; omega)
          · exact .inr (h _ h2).1
        · exact h d hd
      · rw [if_neg hcond]
        exact h
  exact this cols (fun c hc => hc) freed h

/-! ### the values of a field -/

theorem mapM_all {α β : Type} (f : α → Except PyErr β) (g : α → β) (l : List α) (h : ∀ a ∈ l, f a = .ok (g a)) : l.mapM f = .ok (l.map g) := by
  induction l with
  | nil => rfl
  | cons a l ih =>
    rw [List.mapM_cons, h a (by simp), ih (fun a ha => h a (by simp [ha]))]
    rfl

/-- the value of a record in this column -/
def valueIn (rows : List (List Bytes)) (r c : Nat) : Bytes := (rows.getD r []).getD c []

theorem valueIn_get {rows : List (List Bytes)} {r c : Nat} {N : Nat} (hr : r < rows.length) (hl : ∀ row ∈ rows, row.length = N) (hc : c < N) :
    ∃ row, rows[r]? = some row ∧ row[c]? = some (valueIn rows r c) := by
  have h1 : rows[r]? = some rows[r] := List.getElem?_eq_getElem hr
  have h2 : rows[r].length = N := hl _ (List.getElem_mem hr)
  refine ⟨_, h1, ?_⟩
  unfold valueIn
  have e : rows.getD r [] = rows[r] := by rw [List.getD_eq_getElem?_getD, h1, Option.getD_some]
  rw [e, List.getD_eq_getElem?_getD, List.getElem?_eq_getElem (by omega), Option.getD_some]

/-- the values of a field, for all records and repetitions -/
def fieldValues (rows : List (List Bytes)) (F : Forest) (k : Nat) (gs : List Group) : List Bytes :=
  (List.range rows.length).flatMap (fun r => (positions (reps gs)).map (fun ks => valueIn rows r (column k 0 F gs ks)))

theorem extract_ok (mem : Memory) (d : UInt8) (rows : List (List Bytes)) (prows : List Row) (F : Forest) (freed : List Nat) (m : Nat) (f : Field) (gs : List Group)
    (hp : List.Forall₂ (RowLike d (numColumns 1 F)) rows prows)
    (hl : ∀ row ∈ rows, row.length = numColumns 1 F) (hf : (leaves [] F)[m]? = some (f, gs)) (hg : ∀ g ∈ gs, 1 ≤ g.repetitions)
    (hfr : Freed (valueSlots 0 [] F) m freed) :
    ∃ freed', Freed (valueSlots 0 [] F) (m + 1) freed' ∧
      extractDelim mem (numColumns 1 F) rows.length prows freed (fieldOffset m 0 F) (reps gs) (skipFactors m 0 F) =
        .ok (fieldValues rows F m gs, freed') := by
  obtain ⟨gs', e, hslot⟩ := column_slot F 0 m [] gs f hf
  rw [List.nil_append] at e
  subst e
  simp only [Nat.zero_add, List.nil_append] at hslot
  have hcell : ∀ r < rows.length, ∀ ks, Within (reps gs) ks →
      cellAt mem (numColumns 1 F) prows freed r (column m 0 F gs ks) = .ok (valueIn rows r (column m 0 F gs ks)) := by
    intro r hr ks hks
    have hs := hslot ks hks []
    rw [List.nil_append] at hs
    have hlt : column m 0 F gs ks < numColumns 1 F := by
      have := (List.getElem?_eq_some_iff.1 hs).1
      rwa [slots_length] at this
    obtain ⟨row, h1, h2⟩ := valueIn_get hr hl hlt
    refine cellAt_ok mem d rows prows _ hp freed r _ row _ h1 (hl _ (List.mem_of_getElem? h1)) h2 ?_ ?_
    · intro hc
      have := (hfr _ hc).1 _ hs
      simp at this
    · intro hc
      rcases (hfr _ hc).2 with h0 | h0
      · omega
      · rw [Nat.add_sub_cancel] at h0
        have := h0 _ hs
        simp at this
  have hprod : 0 < prod (reps gs) := prod_pos _ (by
    intro n hn
    obtain ⟨g, hg', rfl⟩ := List.mem_map.1 hn
    exact hg g hg')
  unfold extractDelim
  by_cases hgs : reps gs = []
  · rw [if_pos (.inl hgs)]
    have hcol : column m 0 F gs [] = fieldOffset m 0 F := by
      unfold column
      rw [hgs]
      cases hsk : skipFactors m 0 F <;> simp [ravel, skipped]
    have hw : Within (reps gs) [] := by rw [hgs]; exact .nil
    have hm := mapM_all (fun r => cellAt mem (numColumns 1 F) prows freed r (fieldOffset m 0 F))
      (fun r => valueIn rows r (column m 0 F gs [])) (List.range rows.length) (by
        intro r hr
        rw [← hcol]
        exact hcell r (List.mem_range.1 hr) [] hw)
    rw [hm]
    refine ⟨fieldOffset m 0 F :: freed, ?_, ?_⟩
    · intro c hc
      rcases List.mem_cons.1 hc with rfl | hc
      · refine ⟨fun s hs => ?_, ?_⟩
        · have := hslot [] hw []
          rw [hcol, hs, Option.some.injEq] at this
          rw [this]; simp
        · by_cases h0 : fieldOffset m 0 F = 0
          · exact .inl h0
          · have hgs0 : gs = [] := List.map_eq_nil_iff.1 hgs
            subst hgs0
            refine .inr (fun s hs => ?_)
            have := before_plain F 0 m [] f hf [] (fieldOffset m 0 F - 1) (by rw [Nat.zero_add]; omega) s hs
            omega
      · exact hfr.mono c hc
    · simp only [fieldValues]
      congr 2
      rw [hgs]
      simp only [positions, List.map_cons, List.map_nil]
      exact List.map_eq_flatMap
  · rw [if_neg (by rintro (c | c); exacts [hgs c, by omega])]
    simp only
    rw [groupColumns_eq]
    have hm := mapM_all (fun p : Nat × Nat => cellAt mem (numColumns 1 F) prows freed p.1 p.2)
      (fun p => valueIn rows p.1 p.2) ((List.range rows.length).flatMap (fun r => ((positions (reps gs)).map (column m 0 F gs)).map (fun c => (r, c)))) (by
        intro p hp
        rw [List.mem_flatMap] at hp
        obtain ⟨r, hr, hp⟩ := hp
        rw [List.map_map, List.mem_map] at hp
        obtain ⟨ks, hks, rfl⟩ := hp
        exact hcell r (List.mem_range.1 hr) ks (positions_within _ _ hks))
    rw [hm]
    refine ⟨freeGroup ((positions (reps gs)).map (column m 0 F gs)) freed, ?_, ?_⟩
    rotate_left
    · simp only [fieldValues]
      rw [List.map_flatMap]
      simp only [List.map_map]
      rfl
    · refine freeGroup_ok _ m _ _ hfr.mono ?_
      intro c hc s hs
      obtain ⟨ks, hks, rfl⟩ := List.mem_map.1 hc
      have := hslot ks (positions_within _ _ hks) []
      rw [hs, Option.some.injEq] at this
      rw [this]

theorem blank_cases {c : UInt8} (h : isBlank c = true) : c ∈ ([9, 10, 11, 12, 13, 32] : List UInt8) := by
  revert h
  have : ∀ n : Fin 256, isBlank (UInt8.ofNat n) = true → UInt8.ofNat n ∈ ([9, 10, 11, 12, 13, 32] : List UInt8) := by decide +kernel
  have h2 := this ⟨c.toNat, c.toNat_lt⟩
  simpa using h2

theorem numeric_numbers {t : Str} (h : isNumeric t = true) : Numbers t := by
  refine ⟨?_, ?_, ?_⟩
  · intro c
    unfold isNumeric at h
    rw [kind_text c false] at h
    exact Bool.false_ne_true h
  · rintro rfl
    exact absurd h (by decide)
  · rintro rfl
    exact absurd h (by decide)

theorem notBlank {b : Bytes} (h : NotBlank b) : blank b = false := by
  rw [Bool.eq_false_iff]
  intro c
  unfold blank at c
  rw [List.all_eq_true] at c
  obtain ⟨x, hx, hn⟩ := h
  exact hn (blank_cases (c x hx))

theorem blank_not {b : Bytes} (h : blank b = true) : ¬ NotBlank b := fun c => by rw [notBlank c] at h; exact Bool.false_ne_true h

theorem notBlank_of {b : Bytes} (h : blank b = false) : NotBlank b := by
  unfold blank at h
  rw [List.all_eq_false] at h
  obtain ⟨c, hc, hn⟩ := h
  refine ⟨c, hc, fun hm => hn ?_⟩
  have : ∀ c ∈ ([9, 10, 11, 12, 13, 32] : List UInt8), isBlank c = true := by decide
  exact this c hm

theorem numeric_of {E : Env} {t : Str} {b : Bytes} {v : Value} (h : Means E false t b v) (hn : Numbers t) : isNumeric t = true := by
  cases h with
  | number h => cases h
  | integer => decide
  | nonNegative => decide
  | inBase hk =>
    rcases hk with rfl | rfl | rfl <;> decide
  | real => decide
  | notFinite => decide
  | boolean => decide
  | text ht => exact absurd ht hn.1
  | bits ht =>
    rcases ht with rfl | rfl
    · exact absurd rfl hn.2.1
    · exact absurd rfl hn.2.2

theorem convertDelim_ok (E : Env) (t : Str) (cells : List Bytes) (hne : cells ≠ []) (h : ∀ b ∈ cells, Legible E t b) :
    ∃ out, convertDelim E t cells = .ok out ∧ List.Forall₂ (Becomes E t) cells out := by
  unfold convertDelim
  by_cases hn : isNumeric t = true
  · rw [if_pos hn]
    have hN := numeric_numbers hn
    obtain ⟨out, h1, h2⟩ := convert_ok E false t (cells.map (fun b => if blank b then [48] else b)) (by simpa using hne) (by
      intro b hb
      obtain ⟨a, ha, rfl⟩ := List.mem_map.1 hb
      by_cases hab : blank a = true
      · rw [if_pos hab]
        rcases h a ha with h3 | h3
        · exact absurd (h3.2 hN) (blank_not hab)
        · exact h3.2.2
      · rw [if_neg hab]
        rcases h a ha with h3 | h3
        · exact h3.1
        · exact absurd (notBlank_of (by simpa using hab)) h3.2.1)
    rw [h1]
    refine ⟨_, rfl, ?_⟩
    rw [List.forall₂_map_left_iff] at h2
    clear h1 h hne
    induction h2 with
    | nil => exact .nil
    | @cons b c bs cs h3 h4 ih =>
      rw [List.zip_cons_cons, List.map_cons]
      refine .cons ?_ ih
      simp only
      by_cases hb : blank b = true
      · rw [if_pos hb]
        exact ⟨fun _ => rfl, fun c => absurd ⟨hN, blank_not hb⟩ c⟩
      · have hb' : blank b = false := by simpa using hb
        rw [if_neg hb]
        rw [if_neg hb] at h3
        exact ⟨fun c => absurd (notBlank_of hb') c.2, fun _ => ⟨c, rfl, h3⟩⟩
  · rw [if_neg hn]
    have hT : ¬ Numbers t ∨ ∀ b v, ¬ Means E false t b v := by
      by_cases hN : Numbers t
      · exact .inr (fun b v hm => hn (numeric_of hm hN))
      · exact .inl hN
    have hN : ¬ Numbers t := by
      rcases hT with hT | hT
      · exact hT
      · obtain ⟨b, hb⟩ := List.exists_mem_of_ne_nil cells hne
        rcases h b hb with ⟨⟨v, h3⟩, -⟩ | ⟨-, -, v, h3⟩
        · exact absurd h3 (hT _ _)
        · exact absurd h3 (hT _ _)
    obtain ⟨out, h1, h2⟩ := convert_ok E false t cells hne (fun b hb => by
      rcases h b hb with h3 | h3
      · exact h3.1
      · exact absurd h3.1 hN)
    rw [h1]
    refine ⟨_, rfl, ?_⟩
    rw [List.forall₂_map_right_iff]
    refine h2.imp (fun b c hc => ?_)
    exact ⟨fun c => absurd c.1 hN, fun _ => ⟨c, rfl, hc⟩⟩

/-! ### the table -/

/-- what is known of the values of field `k` after conversion -/
def Converted (E : Env) (rows : List (List Bytes)) (F : Forest) (p : (Field × List Group) × Nat) (out : List (Option Cell)) : Prop :=
  List.Forall₂ (Becomes E p.1.1.dataType) (fieldValues rows F p.2 p.1.2) out

theorem values_length (rows : List (List Bytes)) (F : Forest) (k : Nat) (gs : List Group) :
    (fieldValues rows F k gs).length = rows.length * prod (reps gs) := by
  unfold fieldValues
  rw [flatMap_length _ (prod (reps gs)) _ (fun r => by rw [List.length_map, positions_length])]

theorem values_get (rows : List (List Bytes)) (F : Forest) (k : Nat) (gs : List Group) (r : Nat) (hr : r < rows.length) (ks : List Nat)
    (hks : Within (reps gs) ks) :
    (fieldValues rows F k gs)[r * prod (reps gs) + ravel (reps gs) ks]? = some (valueIn rows r (column k 0 F gs ks)) := by
  unfold fieldValues
  rw [flatMap_get _ (prod (reps gs)) _ (fun r => by rw [List.length_map, positions_length]) r _ hr (ravel_lt _ _ hks), List.getElem?_map,
    positions_get _ _ hks]
  rfl

theorem all_body (l : Label) (h : l.uniform = []) : l.all = l.body := by
  unfold Label.all
  rw [h]
  rfl

theorem readFields_ok (E : Env) (mem : Memory) (l : Label) (rows : List (List Bytes)) (prows : List Row) (hrec : rows.length = l.records) (hpos : 1 ≤ l.records)
    (hu : l.uniform = []) (hl : ∀ row ∈ rows, row.length = numColumns 1 l.body) (hg : ∀ g ∈ groups l.body, 1 ≤ g.repetitions)
    (hv : ∀ row ∈ rows, ∀ (i : Nat) (b : Bytes) (k : Nat) (ks : List Nat) (f : Field × List Group), row[i]? = some b →
      (valueSlots 0 [] l.body)[i]? = some (k, ks) → (leaves [] l.body)[k]? = some f → Legible E f.1.dataType b)
    (d : UInt8) (hp : List.Forall₂ (RowLike d (numColumns 1 l.body)) rows prows)
    (L : List (Field × List Group)) (m : Nat) (hL : ∀ j, L[j]? = (leaves [] l.body)[m + j]?)
    (freed : List Nat) (hfr : Freed (valueSlots 0 [] l.body) m freed) :
    ∃ outs, readFields E mem l prows freed ((L.zipIdx m).map (fun p => ⟨p.1.1, p.1.2, p.2⟩)) = .ok outs ∧
      List.Forall₂ (Converted E rows l.body) (L.zipIdx m) outs := by
  induction L generalizing m freed with
  | nil => exact ⟨[], rfl, .nil⟩
  | cons a L ih =>
    obtain ⟨f, gs⟩ := a
    have hf : (leaves [] l.body)[m]? = some (f, gs) := by
      have := hL 0
      simpa using this.symm
    have hg' : ∀ g ∈ gs, 1 ≤ g.repetitions := by
      intro g hgm
      rcases leaves_groups l.body [] (f, gs) (List.mem_of_getElem? hf) g hgm with h | h
      · simp at h
      · exact hg g h
    obtain ⟨freed', h1, h2⟩ := extract_ok mem d rows prows l.body freed m f gs hp hl hf hg' hfr
    obtain ⟨gs', e, hslot⟩ := column_slot l.body 0 m [] gs f hf
    rw [List.nil_append] at e
    subst e
    simp only [Nat.zero_add] at hslot
    have hprod : 0 < prod (reps gs) := prod_pos _ (by
      intro n hn
      obtain ⟨g, hgm, rfl⟩ := List.mem_map.1 hn
      exact hg' g hgm)
    obtain ⟨out, h3, h4⟩ := convertDelim_ok E f.dataType (fieldValues rows l.body m gs) (by
        intro c
        have := congrArg List.length c
        rw [values_length, hrec] at this
        have := Nat.mul_pos (show 0 < l.records by omega) hprod
        simp at *
        omega) (by
        intro b hb
        unfold fieldValues at hb
        rw [List.mem_flatMap] at hb
        obtain ⟨r, hr, hb⟩ := hb
        obtain ⟨ks, hks, rfl⟩ := List.mem_map.1 hb
        have hs := hslot ks (positions_within _ _ hks) []
        have hlt : column m 0 l.body gs ks < numColumns 1 l.body := by
          have := (List.getElem?_eq_some_iff.1 hs).1
          rwa [slots_length] at this
        obtain ⟨row, e1, e2⟩ := valueIn_get (List.mem_range.1 hr) hl hlt
        exact hv row (List.mem_of_getElem? e1) _ _ _ _ _ e2 hs hf)
    obtain ⟨outs, h5, h6⟩ := ih (m + 1) (by
      intro j
      have := hL (j + 1)
      rw [List.getElem?_cons_succ] at this
      rw [this, show m + 1 + j = m + (j + 1) by omega]) freed' h1
    refine ⟨out :: outs, ?_, ?_⟩
    · rw [List.zipIdx_cons, List.map_cons, readFields]
      simp only
      rw [all_body l hu, ← hrec, show gs.map (fun g => g.repetitions) = reps gs from rfl, h2]
      simp only
      rw [h3]
      simp only
      rw [h5]
    · rw [List.zipIdx_cons]
      exact .cons h4 h6

/-- what is known of a column of the structured array -/
def Filled (E : Env) (rows : List (List Bytes)) (F : Forest) (p : (Field × List Group) × Nat) (out : List Cell) : Prop :=
  List.Forall₂ (fun b c => ∀ v, Means E false p.1.1.dataType b v → Pds4Table.Spec.Is c v) (fieldValues rows F p.2 p.1.2) out

theorem placeAll_ok (E : Env) (rows : List (List Bytes)) (F : Forest) (ps : List ((Field × List Group) × Nat)) (outs : List (List Cell))
    (h : List.Forall₂ (Filled E rows F) ps outs) :
    ∃ cs, placeAll rows.length (ps.map (fun p => ⟨p.1.1, p.1.2, p.2⟩)) outs = .ok cs ∧
      List.Forall₂ (fun p c => ∃ out, c = ⟨reps p.1.2, out⟩ ∧ Filled E rows F p out) ps cs := by
  induction h with
  | nil => exact ⟨[], rfl, .nil⟩
  | @cons p out ps outs h1 h2 ih =>
    obtain ⟨cs, h3, h4⟩ := ih
    refine ⟨⟨reps p.1.2, out⟩ :: cs, ?_, .cons ⟨out, rfl, h1⟩ h4⟩
    have hlen : out.length = rows.length * prod (reps p.1.2) := by
      rw [← List.Forall₂.length_eq h1, values_length]
    have hp : place rows.length (p.1.2.map (fun g => g.repetitions)) out = .ok ⟨reps p.1.2, out⟩ := by
      show place rows.length (reps p.1.2) out = _
      unfold place
      by_cases hg : reps p.1.2 = []
      · rw [if_neg (fun c => c hg)]
        rw [hg] at hlen ⊢
        simp only [prod, Nat.mul_one] at hlen
        rw [if_pos hlen]
      · rw [if_pos hg, if_pos hlen]
    rw [List.map_cons, placeAll]
    simp only
    rw [hp, h3]

theorem columns_pos {l : Label} (hf : leaves [] l.body ≠ []) (hr : ∀ g ∈ groups l.body, 1 ≤ g.repetitions) : 1 ≤ numColumns 1 l.body := by
  obtain ⟨p, hp⟩ := List.exists_mem_of_ne_nil _ hf
  obtain ⟨j, hj, e⟩ := List.getElem_of_mem hp
  obtain ⟨gs', e1, e2⟩ := skip_in l.body 0 j [] p.2 p.1 (by rw [List.getElem?_eq_getElem hj, e])
  have : 0 < prod (reps gs') := prod_pos _ (by
    intro n hn
    obtain ⟨g, hgm, rfl⟩ := List.mem_map.1 hn
    rw [List.nil_append] at e1
    rcases leaves_groups l.body [] p hp g (by rw [e1]; exact hgm) with h' | h'
    · simp at h'
    · exact hr g h')
  omega

theorem fieldByte_eq (d : FieldDelim) : fieldByte d = d.byte := by cases d <;> rfl

theorem recordBytes_eq (d : RecordDelim) : recordBytes d = d.bytes := by cases d <;> rfl

theorem records_texts {E : Env} {l : Label} {file : Bytes} {rows : List (List Bytes)} (h : Tabular E l file rows) :
    ∃ texts, List.Forall₂ (RecordText l.fieldDelim.byte) rows texts ∧ (∀ t ∈ texts, 34 ∈ t → E.utf8 t ≠ none) ∧ texts ≠ [] ∧ recordsOf l file = texts := by
  obtain ⟨texts, ht, hsep, hlines⟩ := h.written
  rw [fieldByte_eq] at ht
  simp only [recordBytes_eq] at hsep hlines
  have htl : texts.length = l.records := by rw [← List.Forall₂.length_eq ht, h.count]
  have htn : texts ≠ [] := by
    rintro rfl
    have := h.some_records
    simp at htl
    omega
  refine ⟨texts, ht, fun t ht => (hsep t ht).2, htn, ?_⟩
  unfold recordsOf
  simp only
  rw [data_region l file h.sized h.some_records, ← htl]
  exact split_lines l.recordDelim texts htn (fun t ht => (hsep t ht).1) _ hlines _ (Nat.le_refl _)

theorem delim_quote (l : Label) : l.fieldDelim.byte ≠ 34 := by cases l.fieldDelim <;> decide

theorem delim_ascii (l : Label) : l.fieldDelim.byte.toNat < 128 := by cases l.fieldDelim <;> decide

theorem parse_rows (E : Env) (hE : CutsAscii E) (l : Label) (columns : Nat) (rows : List (List Bytes)) (texts : List Bytes)
    (ht : List.Forall₂ (RecordText l.fieldDelim.byte) rows texts) (hu : ∀ t ∈ texts, 34 ∈ t → E.utf8 t ≠ none)
    (hl : ∀ row ∈ rows, row ≠ [] ∧ row.length ≤ columns + 1) :
    texts.mapM (parseRecord E l.fieldDelim.byte columns) = .ok (rows.map (rowOf l.fieldDelim.byte)) := by
  induction ht with
  | nil => rfl
  | @cons row t rs ts h1 h2 ih =>
    rw [List.mapM_cons, parse_ok E hE _ (delim_quote l) (delim_ascii l) _ row t (hl row (by simp)).1 (hl row (by simp)).2 h1 (hu t (by simp)),
      ih (fun t ht => hu t (by simp [ht])) (fun row hr => hl row (by simp [hr]))]
    rfl

/-- the fields of the table, when records have been taken apart -/
theorem fields_ok (E : Env) (mem : Memory) (l : Label) (file : Bytes) (rows : List (List Bytes)) (texts : List Bytes) (prows : List Row)
    (hpos : 1 ≤ l.records) (hu : l.uniform = []) (hg : ∀ g ∈ groups l.body, 1 ≤ g.repetitions) (hrec : rows.length = l.records)
    (htn : texts ≠ []) (hrecs : recordsOf l file = texts) (hparse : texts.mapM (parseRecord E l.fieldDelim.byte (numColumns 1 l.body)) = .ok prows)
    (hp : List.Forall₂ (RowLike l.fieldDelim.byte (numColumns 1 l.body)) rows prows) (hN : ∀ row ∈ rows, row.length = numColumns 1 l.body)
    (hv : ∀ row ∈ rows, ∀ (i : Nat) (b : Bytes) (k : Nat) (ks : List Nat) (f : Field × List Group), row[i]? = some b →
      (valueSlots 0 [] l.body)[i]? = some (k, ks) → (leaves [] l.body)[k]? = some f → Legible E f.1.dataType b) :
    ∃ outs, List.Forall₂ (Converted E rows l.body) (leaves [] l.body).zipIdx outs ∧
      readDelimited E mem l file = if outs.any (fun f => f.any Option.isNone) then .ok (.masked outs)
        else match placeAll rows.length ((leaves [] l.body).zipIdx.map (fun p => ⟨p.1.1, p.1.2, p.2⟩)) (outs.map (fun f => f.filterMap id)) with
          | .error e => .error e
          | .ok cs => (frame l.table cs).map Loaded.frame := by
  obtain ⟨outs, h1, h2⟩ := readFields_ok E mem l rows prows hrec hpos hu hN hg hv l.fieldDelim.byte hp
    (leaves [] l.body) 0 (by simp) [] (by intro c hc; simp at hc)
  have hplaces : placesOf l = (leaves [] l.body).zipIdx.map (fun p => (⟨p.1.1, p.1.2, p.2⟩ : Place)) := by
    unfold placesOf
    rw [fields_eq, hu]
    simp only [List.length_nil, Nat.zero_add]
  refine ⟨outs, h2, ?_⟩
  unfold readDelimited
  simp only
  rw [hrecs, if_neg htn, all_body l hu, hparse]
  simp only
  rw [hplaces, h1, hrec]
  rfl

/-- the data frame, when records have been taken apart and there are no missing numbers -/
theorem delimited_core (E : Env) (mem : Memory) (l : Label) (file : Bytes) (rows : List (List Bytes)) (texts : List Bytes) (prows : List Row)
    (hpos : 1 ≤ l.records) (hu : l.uniform = []) (hg : ∀ g ∈ groups l.body, 1 ≤ g.repetitions) (hd : ∀ p ∈ leaves [] l.body, p.2.length ≤ 2)
    (hrec : rows.length = l.records)
    (htn : texts ≠ []) (hrecs : recordsOf l file = texts) (hparse : texts.mapM (parseRecord E l.fieldDelim.byte (numColumns 1 l.body)) = .ok prows)
    (hp : List.Forall₂ (RowLike l.fieldDelim.byte (numColumns 1 l.body)) rows prows) (hN : ∀ row ∈ rows, row.length = numColumns 1 l.body)
    (hv : ∀ row ∈ rows, ∀ (i : Nat) (b : Bytes) (k : Nat) (ks : List Nat) (f : Field × List Group), row[i]? = some b →
      (valueSlots 0 [] l.body)[i]? = some (k, ks) → (leaves [] l.body)[k]? = some f →
      (∃ v, Means E false f.1.dataType b v) ∧ (Numbers f.1.dataType → NotBlank b))
    (hn : NamedTable l.table) :
    ∃ blocks, readDelimited E mem l file = .ok (.frame blocks.flatten) ∧
      List.Forall₂ (Spec.Block E l rows) (leaves [] l.body).zipIdx blocks := by
  obtain ⟨outs, h2, hread⟩ := fields_ok E mem l file rows texts prows hpos hu hg hrec htn hrecs hparse hp hN
    (fun row hr i b k ks f a1 a2 a3 => .inl (hv row hr i b k ks f a1 a2 a3))
  -- nothing is masked
  obtain ⟨outs', rfl, h2'⟩ : ∃ outs' : List (List Cell), outs = outs'.map (List.map some) ∧
      List.Forall₂ (Filled E rows l.body) (leaves [] l.body).zipIdx outs' := by
    have hmem : ∀ p ∈ (leaves [] l.body).zipIdx, ∀ b ∈ fieldValues rows l.body p.2 p.1.2, Numbers p.1.1.dataType → NotBlank b := by
      intro p hp b hb
      have hget : (leaves [] l.body)[p.2]? = some p.1 := List.mem_zipIdx_iff_getElem?.1 hp
      obtain ⟨gs', e, hslot⟩ := column_slot l.body 0 p.2 [] p.1.2 p.1.1 hget
      rw [List.nil_append] at e
      rw [← e] at hslot
      simp only [Nat.zero_add] at hslot
      unfold fieldValues at hb
      rw [List.mem_flatMap] at hb
      obtain ⟨r, hr, hb⟩ := hb
      obtain ⟨ks, hks, rfl⟩ := List.mem_map.1 hb
      have hs := hslot ks (positions_within _ _ hks) []
      have hlt : column p.2 0 l.body p.1.2 ks < numColumns 1 l.body := by
        have := (List.getElem?_eq_some_iff.1 hs).1
        rwa [slots_length] at this
      obtain ⟨row, e1, e2⟩ := valueIn_get (List.mem_range.1 hr) hN hlt
      exact (hv row (List.mem_of_getElem? e1) _ _ _ _ _ e2 hs hget).2
    clear hread
    generalize (leaves [] l.body).zipIdx = ps at h2 hmem
    induction h2 with
    | nil => exact ⟨[], rfl, .nil⟩
    | @cons p out ps outs g1 g2 ih =>
      obtain ⟨outs', rfl, g3⟩ := ih (fun p hp => hmem p (by simp [hp]))
      have hb := hmem p (by simp)
      obtain ⟨out', rfl, g4⟩ : ∃ out' : List Cell, out = out'.map some ∧ Filled E rows l.body p out' := by
        unfold Filled
        unfold Converted at g1
        clear hmem g2 g3 ih
        generalize fieldValues rows l.body p.2 p.1.2 = bs at g1 hb
        induction g1 with
        | nil => exact ⟨[], rfl, .nil⟩
        | @cons b o bs os k1 k2 ih =>
          obtain ⟨os', rfl, k3⟩ := ih (fun b h => hb b (by simp [h]))
          obtain ⟨c, rfl, k4⟩ := k1.2 (fun c => c.2 (hb b (by simp) c.1))
          exact ⟨c :: os', rfl, .cons k4 k3⟩
      exact ⟨out' :: outs', rfl, .cons g4 g3⟩
  obtain ⟨cs, h3, h4⟩ := placeAll_ok E rows l.body _ outs' h2'
  have hleaf := leaves_named l.body [] hn.body (by simp)
  obtain ⟨blocks, h5, h6⟩ := frame_gen (fun p : (Field × List Group) × Nat => p.1) l.table hn (leaves [] l.body).zipIdx (by
      rw [List.zipIdx_map_fst]; rfl) cs _ (Spec.Block E l rows) h4 (by
    rintro p hp x c hx ⟨out, rfl, hout⟩
    have hget : (leaves [] l.body)[p.2]? = some p.1 := List.mem_zipIdx_iff_getElem?.1 hp
    have hmem := List.mem_of_getElem? hget
    obtain ⟨gs', e, hslot⟩ := column_slot l.body 0 p.2 [] p.1.2 p.1.1 hget
    rw [List.nil_append] at e
    rw [← e] at hslot
    simp only [Nat.zero_add] at hslot
    have hlen : out.length = l.table.records * prod (reps p.1.2) := by
      rw [← List.Forall₂.length_eq hout, values_length, hrec]; rfl
    obtain ⟨cols, g1, g2, g3⟩ := block_gen l.table.records p.1 x out (fun r ks c => ∀ row, rows[r]? = some row →
        ∃ (i : Nat) (b : Bytes), (valueSlots 0 [] l.body)[i]? = some (p.2, ks) ∧ row[i]? = some b ∧
          ∀ v, Means E false p.1.1.dataType b v → Pds4Table.Spec.Is c v)
      (hd _ hmem) (hleaf _ hmem).1 (hleaf _ hmem).2 hx hlen (by
        intro r hr ks hks
        have hr' : r < rows.length := by rw [hrec]; exact hr
        have hs := hslot ks hks []
        rw [List.nil_append] at hs
        have hlt : column p.2 0 l.body p.1.2 ks < numColumns 1 l.body := by
          have := (List.getElem?_eq_some_iff.1 hs).1
          rwa [slots_length] at this
        obtain ⟨row, e1, e2⟩ := valueIn_get hr' hN hlt
        have hv := values_get rows l.body p.2 p.1.2 r hr' ks hks
        obtain ⟨hlt', hv⟩ := List.getElem?_eq_some_iff.1 hv
        have hlt'' : r * prod (reps p.1.2) + ravel (reps p.1.2) ks < out.length := by
          rw [← List.Forall₂.length_eq hout]; exact hlt'
        refine ⟨out[r * prod (reps p.1.2) + ravel (reps p.1.2) ks], List.getElem?_eq_getElem hlt'', ?_⟩
        intro row' hrow'
        rw [e1, Option.some.injEq] at hrow'
        subst hrow'
        refine ⟨_, _, hs, e2, ?_⟩
        have := (List.forall₂_iff_get.1 hout).2 _ hlt' hlt''
        simp only [List.get_eq_getElem] at this
        rw [hv] at this
        exact this)
    refine ⟨cols, g1, g2, fun ks hks => ?_⟩
    obtain ⟨col, g4, g5, g6⟩ := g3 ks hks
    refine ⟨col, g4, g5, fun r row hrow => ?_⟩
    have hr : r < l.table.records := by
      have := (List.getElem?_eq_some_iff.1 hrow).1
      rw [hrec] at this
      exact this
    obtain ⟨c, g7, g8⟩ := g6 r hr
    obtain ⟨i, b, g9, g10, g11⟩ := g8 row hrow
    exact ⟨i, b, c, g9, g10, g7, g11⟩)
  refine ⟨blocks, ?_, h6⟩
  rw [hread]
  have hany : (outs'.map (List.map some)).any (fun f => f.any Option.isNone) = false := by
    rw [List.any_eq_false]
    intro x hx
    obtain ⟨o, -, rfl⟩ := List.mem_map.1 hx
    simp
  have hfm : (outs'.map (List.map some)).map (fun f : List (Option Cell) => f.filterMap id) = outs' := by
    rw [List.map_map]
    conv => rhs; rw [← List.map_id outs']
    refine List.map_congr_left (fun o _ => ?_)
    simp
  rw [hany, hfm, h3]
  simp only [Bool.false_eq_true, if_false]
  rw [h5]
  have hu' : l.table.uniform = [] := hu
  rw [hu']
  rfl

/-- **C74**: A delimited PDS4 table is read as what its label and its text say. Every field of the label has, in order, one
column for each repetition of the groups it is in, and in each record its value is the one written in the place of this
field and repetition, with or without quotes around it, whatever was in memory before. -/
theorem C74_delimited (E : Env) (hE : CutsAscii E) (mem : Memory) (l : Label) (file : Bytes) (rows : List (List Bytes))
    (h : Spec.Readable E l file rows) (hn : NamedTable l.table) :
    ∃ blocks, readDelimited E mem l file = .ok (.frame blocks.flatten) ∧
      List.Forall₂ (Spec.Block E l rows) (leaves [] l.body).zipIdx blocks := by
  obtain ⟨texts, ht, hu, htn, hrecs⟩ := records_texts h.toTabular
  have hN : ∀ row ∈ rows, row.length = numColumns 1 l.body := fun row hr => by rw [h.complete row hr, slots_length]
  have hN1 := columns_pos h.some_fields h.repeated
  refine delimited_core E mem l file rows texts _ h.some_records h.no_uniform h.repeated h.depth h.count htn hrecs
    (parse_rows E hE l _ rows texts ht hu (fun row hr => ?_)) ?_ hN h.values hn
  · have := hN row hr
    exact ⟨by rintro rfl; simp at this; omega, by omega⟩
  · rw [List.forall₂_map_right_iff]
    refine List.forall₂_same.2 (fun row hr => ?_)
    rw [← hN row hr]
    exact rowOf_like _ row

/-- **C74**: The values of a record are for the fields and their repetitions one to one: field `k` has a value for all
repetitions of its groups, and no two values are for the same. -/
theorem C74_one_each (F : Forest) :
    (valueSlots 0 [] F).Nodup ∧
    ∀ k ks, (k, ks) ∈ valueSlots 0 [] F ↔ ∃ f gs, (leaves [] F)[k]? = some (f, gs) ∧ Within (reps gs) ks := by
  have hgen : ∀ (F : Forest) (n : Nat) (pre : List Nat), (valueSlots n pre F).Nodup ∧
      ∀ (gs : List Group), ∀ s ∈ valueSlots n pre F, ∃ f gs' ks, (leaves gs F)[s.1 - n]? = some (f, gs ++ gs') ∧ Within (reps gs') ks ∧ s.2 = pre ++ ks := by
    intro F
    induction F with
    | nil => intro n pre; simp [valueSlots]
    | field f F ih =>
      intro n pre
      obtain ⟨h1, h2⟩ := ih (n + 1) pre
      refine ⟨?_, ?_⟩
      · rw [valueSlots, List.nodup_cons]
        refine ⟨fun c => ?_, h1⟩
        have := slot_numbers _ _ _ _ c
        simp at this
      · intro gs s hs
        rw [valueSlots, List.mem_cons] at hs
        rcases hs with rfl | hs
        · exact ⟨f, [], [], by simp [leaves], .nil, by simp⟩
        · obtain ⟨f', gs', ks, h3, h4, h5⟩ := h2 gs s hs
          refine ⟨f', gs', ks, ?_, h4, h5⟩
          have := slot_numbers _ _ _ s hs
          rw [leaves, show s.1 - n = (s.1 - (n + 1)) + 1 by omega, List.getElem?_cons_succ]
          exact h3
    | group g inner F ih1 ih2 =>
      intro n pre
      obtain ⟨h1, h2⟩ := ih2 (n + (leaves [] inner).length) pre
      refine ⟨?_, ?_⟩
      · rw [valueSlots, List.nodup_append]
        refine ⟨?_, h1, ?_⟩
        · rw [List.nodup_flatMap]
          refine ⟨fun k _ => (ih1 n _).1, ?_⟩
          refine List.nodup_range.imp ?_
          intro a b hab s hs1 hs2
          obtain ⟨_, _, k1, -, -, e1⟩ := (ih1 n (pre ++ [a])).2 [] s hs1
          obtain ⟨_, _, k2, -, -, e2⟩ := (ih1 n (pre ++ [b])).2 [] s hs2
          rw [e1] at e2
          simp at e2
          exact hab e2.1
        · intro s hs s' hs' e
          subst e
          rw [List.mem_flatMap] at hs
          obtain ⟨k, -, hs⟩ := hs
          have a := slot_numbers _ _ _ _ hs
          have b := slot_numbers _ _ _ _ hs'
          rw [count_leaves] at b
          omega
      · intro gs s hs
        rw [valueSlots, List.mem_append] at hs
        rcases hs with hs | hs
        · rw [List.mem_flatMap] at hs
          obtain ⟨k, hk, hs⟩ := hs
          obtain ⟨f, gs', ks, h3, h4, h5⟩ := (ih1 n (pre ++ [k])).2 (gs ++ [g]) s hs
          have := slot_numbers _ _ _ _ hs
          refine ⟨f, g :: gs', k :: ks, ?_, .cons (List.mem_range.1 hk) h4, by rw [h5]; simp⟩
          rw [leaves, List.getElem?_append_left (by rw [count_leaves]; omega), h3]
          simp
        · obtain ⟨f, gs', ks, h3, h4, h5⟩ := h2 gs s hs
          have := slot_numbers _ _ _ _ hs
          rw [count_leaves] at this h3
          refine ⟨f, gs', ks, ?_, h4, h5⟩
          rw [leaves, List.getElem?_append_right (by rw [count_leaves]; omega), count_leaves, ← h3]
          congr 1
          omega
  refine ⟨(hgen F 0 []).1, fun k ks => ⟨fun h => ?_, ?_⟩⟩
  · obtain ⟨f, gs', ks', h1, h2, h3⟩ := (hgen F 0 []).2 [] _ h
    simp only [Nat.sub_zero, List.nil_append] at h1 h3
    subst h3
    exact ⟨f, gs', h1, h2⟩
  · rintro ⟨f, gs, h1, h2⟩
    obtain ⟨gs', e, hslot⟩ := column_slot F 0 k [] gs f h1
    rw [List.nil_append] at e
    subst e
    have := hslot ks h2 []
    rw [Nat.zero_add, List.nil_append] at this
    exact List.mem_of_getElem? this

/-! ### a table -/

/-- Two records with a number, a group of two fields with two repetitions, and a text. -/
def demo : Label where
  offset := 1
  records := 2
  objectLength := none
  maxRecord := some 20
  fieldDelim := .comma
  recordDelim := .crlf
  uniform := []
  body := .field ⟨c!"ID", 0, 0, c!"ASCII_Integer"⟩
    (.group ⟨none, 0, 0, 2⟩ (.field ⟨c!"V", 0, 0, c!"UTF8_String"⟩ (.field ⟨c!"W", 0, 0, c!"UTF8_String"⟩ .nil))
      (.field ⟨c!"T", 0, 0, c!"UTF8_String"⟩ .nil))

/-- `x` and the records `-1,a,"b,c",,d"e,"f"` and `7,g,h,i,j,` -/
def demoFile : Bytes :=
  [120, 45, 49, 44, 97, 44, 34, 98, 44, 99, 34, 44, 44, 100, 34, 101, 44, 34, 102, 34, 13, 10,
   55, 44, 103, 44, 104, 44, 105, 44, 106, 44, 13, 10, 1, 2]

def demoRows : List (List Bytes) := [[[45, 49], [97], [98, 44, 99], [], [100, 34, 101], [102]], [[55], [103], [104], [105], [106], []]]

theorem demo_cuts : CutsAscii demoEnv := fun a c b _ _ => ⟨by simp [demoEnv], by simp [demoEnv]⟩

theorem demo_named : NamedTable demo.table where
  body := ⟨nameOk_of (by decide), by decide, ⟨(fun n hn => Option.noConfusion rfl (heq_of_eq hn)),
    ⟨nameOk_of (by decide), by decide, ⟨nameOk_of (by decide), by decide, trivial⟩⟩, ⟨nameOk_of (by decide), by decide, trivial⟩⟩⟩
  uniform := by intro u hu; simp [demo, Label.table] at hu
  different := by decide

theorem demo_readable : Spec.Readable demoEnv demo demoFile demoRows where
  some_records := by decide
  some_fields := by decide
  no_uniform := rfl
  sized := by decide
  repeated := by
    intro g hg
    simp only [demo, groups, List.cons_append, List.nil_append, List.mem_singleton] at hg
    subst hg
    decide
  depth := by
    intro p hp
    simp only [demo, leaves, List.nil_append, List.cons_append, List.mem_cons, List.not_mem_nil, or_false] at hp
    rcases hp with rfl | rfl | rfl | rfl <;> decide
  count := rfl
  written := by
    refine ⟨[[45, 49, 44, 97, 44, 34, 98, 44, 99, 34, 44, 44, 100, 34, 101, 44, 34, 102, 34], [55, 44, 103, 44, 104, 44, 105, 44, 106, 44]], ?_, ?_, ?_⟩
    · refine .cons ⟨[[45, 49], [97], [34, 98, 44, 99, 34], [], [100, 34, 101], [34, 102, 34]], ?_, rfl⟩
        (.cons ⟨[[55], [103], [104], [105], [106], []], ?_, rfl⟩ .nil)
      · exact .cons (.plain (by decide) (by decide)) (.cons (.plain (by decide) (by decide)) (.cons (.quoted (v := [98, 44, 99]) (by decide))
          (.cons (.plain (by decide) (by decide)) (.cons (.plain (by decide) (by decide)) (.cons (.quoted (v := [102]) (by decide)) .nil)))))
      · exact .cons (.plain (by decide) (by decide)) (.cons (.plain (by decide) (by decide)) (.cons (.plain (by decide) (by decide))
          (.cons (.plain (by decide) (by decide)) (.cons (.plain (by decide) (by decide)) (.cons (.plain (by decide) (by decide)) .nil)))))
    · intro t ht
      simp only [List.mem_cons, List.not_mem_nil, or_false] at ht
      rcases ht with rfl | rfl
      · exact ⟨by decide, fun _ => by simp [demoEnv]⟩
      · exact ⟨by decide, fun _ => by simp [demoEnv]⟩
    · exact .inr ⟨[1, 2], by decide⟩
  complete := by
    intro row hr
    simp only [demoRows, List.mem_cons, List.not_mem_nil, or_false] at hr
    rcases hr with rfl | rfl <;> decide
  values := by
    intro row hr i b k ks f h1 h2 h3
    have hi : i < 6 := (List.getElem?_eq_some_iff.1 h2).1
    simp only [demoRows, List.mem_cons, List.not_mem_nil, or_false] at hr
    have htext : ∀ b : Bytes, b.getLast? ≠ some 0 → (∃ v, Means demoEnv false c!"UTF8_String" b v) ∧ (Numbers c!"UTF8_String" → NotBlank b) := by
      intro b hb
      have := Means.text (E := demoEnv) (binary := false) (t := c!"UTF8_String") (b := b) (k := 0) (s := latin b) (by decide) hb rfl
      rw [List.replicate_zero, List.append_nil] at this
      exact ⟨⟨_, this⟩, fun c => absurd (by decide) c.1⟩
    have h0 : ∀ j < 6, ∀ k ks, (valueSlots 0 [] demo.body)[j]? = some (k, ks) → (k = 0 ↔ j = 0) ∧ k < 4 := by
      intro j hj k ks h
      have : j = 0 ∨ j = 1 ∨ j = 2 ∨ j = 3 ∨ j = 4 ∨ j = 5 := by omega
      rcases this with rfl | rfl | rfl | rfl | rfl | rfl <;>
        · simp [valueSlots, demo, leaves, List.range_succ] at h
          rw [← h.1]
          decide
    obtain ⟨hk, hk4⟩ := h0 i hi k ks h2
    by_cases hi0 : i = 0
    · have hk0 := hk.2 hi0
      subst hi0
      subst hk0
      simp only [demo, leaves, List.getElem?_cons_zero, Option.some.injEq] at h3
      subst h3
      rcases hr with rfl | rfl
      · simp only [List.getElem?_cons_zero, Option.some.injEq] at h1
        subst h1
        exact ⟨⟨_, .integer (s := c!"-1") (n := -1) ⟨0, 0, [45, 49], rfl, rfl⟩
          (.inr (.inr ⟨c!"1", 1, rfl, numeral_one '1' 1 (.inl ⟨by decide, rfl⟩) (by decide), rfl⟩)) (by decide) (by decide)⟩, fun _ => ⟨45, by decide, by decide⟩⟩
      · simp only [List.getElem?_cons_zero, Option.some.injEq] at h1
        subst h1
        exact ⟨⟨_, .integer (s := c!"7") (n := 7) ⟨0, 0, [55], rfl, rfl⟩
          (.inl ⟨7, numeral_one '7' 7 (.inl ⟨by decide, rfl⟩) (by decide), rfl⟩) (by decide) (by decide)⟩, fun _ => ⟨55, by decide, by decide⟩⟩
    · have hk0 : k ≠ 0 := fun c => hi0 (hk.1 c)
      have hf : f.1.dataType = c!"UTF8_String" := by
        have : k = 1 ∨ k = 2 ∨ k = 3 := by omega
        rcases this with rfl | rfl | rfl <;> simp [demo, leaves] at h3 <;> rw [← h3]
      rw [hf]
      refine htext b ?_
      have hb := List.mem_of_getElem? h1
      have : ∀ row ∈ demoRows, ∀ b ∈ row, b.getLast? ≠ some 0 := by decide
      exact this row (by rcases hr with rfl | rfl <;> simp [demoRows]) b hb

/-- what is shown of a table -/
def shownTable (r : Except PyErr Loaded) : PyErr ⊕ List (Str × List (Int ⊕ Str)) :=
  match r with
  | .error e => .inl e
  | .ok (.frame cols) => shown (.ok cols)
  | .ok (.masked _) => .inl .notImplemented

example : shownTable (readDelimited demoEnv (fun _ _ => 0) demo demoFile) = .inr
    [(c!"ID", [.inl (-1), .inl 7]), (c!"V_0", [.inr c!"a", .inr c!"g"]), (c!"V_1", [.inr c!"", .inr c!"i"]),
     (c!"W_0", [.inr c!"b,c", .inr c!"h"]), (c!"W_1", [.inr c!"d\"e", .inr c!"j"]), (c!"T", [.inr c!"f", .inr c!""])] := by decide +kernel

end Verif.Pds4Delim
