/-
C75: what delimited tables do not get.
-/
import Verif.Props.Pds4Delim

namespace Verif.Pds4Delim
open Verif.Py Verif.Bits Verif.Image Verif.Table.Spec Verif.ImageFile Verif.ImageFile.Spec Verif.Pds4Table Verif.Pds4Table.Spec
  Verif.Pds4Delim.Spec

/-- **C75**: A delimited table without records is not read. -/
theorem C75_no_records (E : Env) (mem : Memory) (l : Label) (file : Bytes) (h : l.records = 0) :
    readDelimited E mem l file = .error .valueError := by
  have : recordsOf l file = [] := by unfold recordsOf; rw [h]; rfl
  unfold readDelimited
  simp only
  rw [this, if_pos rfl]

theorem mapM_only {α β : Type} (f : α → Except PyErr β) (e : PyErr) (l : List α) (h : ∀ a ∈ l, (∃ b, f a = .ok b) ∨ f a = .error e)
    (hx : ∃ a ∈ l, f a = .error e) : l.mapM f = .error e := by
  induction l with
  | nil => obtain ⟨a, ha, -⟩ := hx; cases ha
  | cons a l ih =>
    rw [List.mapM_cons]
    rcases h a (by simp) with ⟨b, hb⟩ | hb
    · rw [hb]
      have : l.mapM f = .error e := by
        refine ih (fun a ha => h a (by simp [ha])) ?_
        obtain ⟨x, hx, hf⟩ := hx
        rcases List.mem_cons.1 hx with rfl | hx
        · rw [hb] at hf; cases hf
        · exact ⟨x, hx, hf⟩
      rw [this]
      rfl
    · rw [hb]
      rfl

theorem split_exact (R : RecordDelim) (texts : List Bytes) (hne : texts ≠ []) (h : ∀ t ∈ texts, ¬ R.bytes <:+: t)
    (n : Nat) (hn : (joinBytes R.bytes texts).length ≤ n) : splitOn R.bytes n [] (joinBytes R.bytes texts) = texts := by
  induction texts generalizing n with
  | nil => exact absurd rfl hne
  | cons t ts ih =>
    have ht := h t (by simp)
    by_cases hts : ts = []
    · subst hts
      simp only [joinBytes]
      rw [split_last R _ ht]; rfl
    · rw [join_cons _ _ _ hts] at hn ⊢
      obtain ⟨m, h1, h2⟩ := split_record R t _ ht n hn []
      rw [h2, ih hts (fun t ht => h t (by simp [ht])) m h1]
      rfl

theorem cell_or (mem : Memory) (columns : Nat) (prows : List Row) (r c : Nat) :
    (r < prows.length → ∃ v, cellAt mem columns prows [] r c = .ok v) ∧ (prows.length ≤ r → cellAt mem columns prows [] r c = .error .indexError) := by
  unfold cellAt
  rw [if_neg (by simp)]
  refine ⟨fun h => ?_, fun h => ?_⟩
  · rw [List.getElem?_eq_getElem h]
    exact ⟨_, rfl⟩
  · rw [List.getElem?_eq_none h]

theorem extract_missing (mem : Memory) (columns records : Nat) (prows : List Row) (h : prows.length < records) (start : Nat) (rs sk : List Nat) :
    extractDelim mem columns records prows [] start rs sk = .error .indexError := by
  unfold extractDelim
  by_cases hc : rs = [] ∨ prod rs = 0
  · rw [if_pos hc, mapM_only _ .indexError]
    · intro r _
      rcases Nat.lt_or_ge r prows.length with hr | hr
      · exact .inl ((cell_or mem columns prows r start).1 hr)
      · exact .inr ((cell_or mem columns prows r start).2 hr)
    · exact ⟨prows.length, List.mem_range.2 h, (cell_or mem columns prows _ start).2 (Nat.le_refl _)⟩
  · rw [if_neg hc]
    simp only
    rw [mapM_only _ .indexError]
    · intro p _
      rcases Nat.lt_or_ge p.1 prows.length with hr | hr
      · exact .inl ((cell_or mem columns prows p.1 p.2).1 hr)
      · exact .inr ((cell_or mem columns prows p.1 p.2).2 hr)
    · have hpos : 0 < prod rs := by
        rcases Nat.eq_zero_or_pos (prod rs) with h0 | h0
        · exact absurd (.inr h0) hc
        · exact h0
      obtain ⟨c, hcm⟩ : ∃ c, c ∈ groupColumns start rs sk := by
        refine List.exists_mem_of_ne_nil _ (fun e => ?_)
        have := congrArg List.length e
        unfold groupColumns at this
        rw [List.length_map, List.length_zipIdx, positions_length] at this
        simp at this
        omega
      exact ⟨(prows.length, c), List.mem_flatMap.2 ⟨_, List.mem_range.2 h, List.mem_map.2 ⟨c, hcm, rfl⟩⟩, (cell_or mem columns prows _ c).2 (Nat.le_refl _)⟩

/-- **C75**: When the file has fewer records than the label says, nothing is read. (If there is a delimiter after the last
record, the rest counts as one more record.) -/
theorem C75_missing_records (E : Env) (hE : CutsAscii E) (mem : Memory) (l : Label) (file : Bytes) (rows : List (List Bytes)) (texts : List Bytes)
    (hf : leaves [] l.body ≠ []) (hsz : l.objectLength ≠ some 0 ∧ l.maxRecord ≠ some 0) (hne : rows ≠ []) (hless : rows.length < l.records)
    (ht : List.Forall₂ (RecordText (fieldByte l.fieldDelim)) rows texts)
    (hs : ∀ t ∈ texts, ¬ (recordBytes l.recordDelim) <:+: t ∧ (34 ∈ t → E.utf8 t ≠ none))
    (hr : region l file = List.intercalate (recordBytes l.recordDelim) texts)
    (hl : ∀ row ∈ rows, row ≠ [] ∧ row.length ≤ l.uniform.length + (valueSlots 0 [] l.body).length + 1) :
    readDelimited E mem l file = .error .indexError := by
  rw [fieldByte_eq] at ht
  rw [recordBytes_eq] at hs hr
  have htl : texts.length = rows.length := (List.Forall₂.length_eq ht).symm
  have htn : texts ≠ [] := by
    rintro rfl
    cases ht
    exact hne rfl
  have hrecs : recordsOf l file = texts := by
    unfold recordsOf
    simp only
    rw [data_region l file hsz (by omega), hr, ← join_intercalate, split_exact _ _ htn (fun t ht => (hs t ht).1) _ (Nat.le_refl _),
      List.take_of_length_le (by omega)]
  have hcol : numColumns 1 l.all = l.uniform.length + (valueSlots 0 [] l.body).length := by
    rw [slots_length]
    unfold Label.all
    induction l.uniform with
    | nil => simp
    | cons u us ih => simp only [List.foldr_cons, numColumns, List.length_cons, ih]; omega
  unfold readDelimited
  simp only
  rw [hrecs, if_neg htn, parse_rows E hE l _ rows texts ht (fun t ht => (hs t ht).2) (fun row hr => by rw [hcol]; exact hl row hr)]
  simp only
  cases hp : placesOf l with
  | nil =>
    unfold placesOf at hp
    rw [List.map_eq_nil_iff, List.zipIdx_eq_nil_iff, fields_eq] at hp
    exact absurd hp hf
  | cons p ps =>
    rw [readFields, extract_missing mem _ _ _ (by rw [List.length_map]; exact hless)]

theorem parse_over (E : Env) (hE : CutsAscii E) (l : Label) (columns : Nat) (values : List Bytes) (text : Bytes)
    (hl : columns + 1 < values.length) (ht : RecordText l.fieldDelim.byte values text) (hu : 34 ∈ text → E.utf8 text ≠ none) :
    parseRecord E l.fieldDelim.byte columns text = .error .indexError := by
  have h := parse_ok E hE _ (delim_quote l) (delim_ascii l) values.length values text (by rintro rfl; simp at hl) (by omega) ht hu
  unfold parseRecord at h ⊢
  simp only at h ⊢
  by_cases hq : text.contains 34 = true
  · rw [if_pos hq] at h ⊢
    cases hun : unquote E l.fieldDelim.byte (splitByte l.fieldDelim.byte text).length (splitByte l.fieldDelim.byte text) with
    | error e => rw [hun] at h; cases h
    | ok vs =>
      rw [hun] at h
      simp only at h ⊢
      by_cases hc : values.length + 1 < vs.length
      · rw [if_pos hc] at h; cases h
      · rw [if_neg hc, Except.ok.injEq] at h
        have := congrArg (fun r : Row => r.starts.length) h
        simp only [rowOf, starts_length] at this
        rw [if_pos (by omega)]
  · rw [if_neg hq] at h ⊢
    by_cases hc : values.length + 1 < (splitByte l.fieldDelim.byte text).length
    · rw [if_pos hc] at h; cases h
    · rw [if_neg hc, Except.ok.injEq] at h
      have := congrArg (fun r : Row => r.starts.length) h
      simp only [rowOf, starts_length] at this
      rw [if_pos (by omega)]

/-- **C75**: When a record has at least two values too many, nothing is read. -/
theorem C75_too_many (E : Env) (hE : CutsAscii E) (mem : Memory) (l : Label) (file : Bytes) (rows : List (List Bytes))
    (h : Tabular E l file rows) (hne : ∀ row ∈ rows, row ≠ [])
    (hx : ∃ row ∈ rows, l.uniform.length + (valueSlots 0 [] l.body).length + 2 ≤ row.length) :
    readDelimited E mem l file = .error .indexError := by
  obtain ⟨texts, ht, hu, htn, hrecs⟩ := records_texts h
  have hcol : numColumns 1 l.all = l.uniform.length + (valueSlots 0 [] l.body).length := by
    rw [slots_length]
    unfold Label.all
    clear hx
    induction l.uniform with
    | nil => simp
    | cons u us ih => simp only [List.foldr_cons, numColumns, List.length_cons, ih]; omega
  rw [← hcol] at hx
  unfold readDelimited
  simp only
  rw [hrecs, if_neg htn, mapM_only _ .indexError]
  · intro t htm
    obtain ⟨i, hi, rfl⟩ := List.getElem_of_mem htm
    have hi' : i < rows.length := by rw [List.Forall₂.length_eq ht]; exact hi
    have hrt := (List.forall₂_iff_get.1 ht).2 i hi' hi
    simp only [List.get_eq_getElem] at hrt
    rcases Nat.lt_or_ge (numColumns 1 l.all + 1) rows[i].length with hc | hc
    · exact .inr (parse_over E hE l _ _ _ hc hrt (hu _ htm))
    · exact .inl ⟨_, parse_ok E hE _ (delim_quote l) (delim_ascii l) _ _ _ (hne _ (List.getElem_mem _)) hc hrt (hu _ htm)⟩
  · obtain ⟨row, hrow, hlen⟩ := hx
    obtain ⟨i, hi, rfl⟩ := List.getElem_of_mem hrow
    have hi' : i < texts.length := by rw [← List.Forall₂.length_eq ht]; exact hi
    have hrt := (List.forall₂_iff_get.1 ht).2 i hi hi'
    simp only [List.get_eq_getElem] at hrt
    exact ⟨texts[i], List.getElem_mem _, parse_over E hE l _ _ _ (by omega) hrt (hu _ (List.getElem_mem _))⟩

/-- a record as it is or, if it has one value too many, with the last two values taken as one, the delimiter between them -/
inductive Glued (d : UInt8) (columns : Nat) : List Bytes → List Bytes → Prop
  | same {row : List Bytes} : row.length = columns → Glued d columns row row
  | glued {init : List Bytes} {a b : Bytes} : init.length + 1 = columns → Glued d columns (init ++ [a ++ [d] ++ b]) (init ++ [a, b])

/-- **C75**: One value too many in a record is not reported: it is added to the last value of the record, with the
delimiter between them. -/
theorem C75_one_too_many (E : Env) (hE : CutsAscii E) (mem : Memory) (l : Label) (file : Bytes) (rows seen : List (List Bytes))
    (h : Tabular E l file rows) (hu : l.uniform = []) (hd : ∀ p ∈ leaves [] l.body, p.2.length ≤ 2) (hn : NamedTable l.table)
    (hg : List.Forall₂ (Glued (fieldByte l.fieldDelim) (valueSlots 0 [] l.body).length) seen rows)
    (hv : ∀ row ∈ seen, ∀ (i : Nat) (b : Bytes) (k : Nat) (ks : List Nat) (f : Field × List Group), row[i]? = some b →
      (valueSlots 0 [] l.body)[i]? = some (k, ks) → (leaves [] l.body)[k]? = some f →
      (∃ v, Means E false f.1.dataType b v) ∧ (Numbers f.1.dataType → NotBlank b)) :
    ∃ blocks, readDelimited E mem l file = .ok (.frame blocks.flatten) ∧
      List.Forall₂ (Spec.Block E l seen) (leaves [] l.body).zipIdx blocks := by
  obtain ⟨texts, ht, hut, htn, hrecs⟩ := records_texts h
  rw [slots_length, fieldByte_eq] at hg
  have hN1 := columns_pos h.some_fields h.repeated
  have hcount : seen.length = l.records := by rw [List.Forall₂.length_eq hg, h.count]
  refine delimited_core E mem l file seen texts (rows.map (rowOf l.fieldDelim.byte)) h.some_records hu h.repeated hd hcount htn hrecs
    (parse_rows E hE l _ rows texts ht hut ?_) ?_ ?_ hv hn
  · clear hv hcount ht hrecs h
    induction hg with
    | nil => simp
    | cons g1 g2 ih =>
      intro row hr
      rcases List.mem_cons.1 hr with rfl | hr
      · cases g1 with
        | same h1 => exact ⟨by rintro rfl; simp at h1; omega, by omega⟩
        | glued h1 => exact ⟨by simp, by simp; omega⟩
      · exact ih row hr
  · rw [List.forall₂_map_right_iff]
    refine hg.imp (fun a b hab => ?_)
    cases hab with
    | same h1 => rw [← h1]; exact rowOf_like _ _
    | @glued init a b h1 =>
      rw [← h1, List.append_assoc, List.singleton_append]
      exact extra_like _ init a b
  · clear hv hcount ht hrecs h
    induction hg with
    | nil => simp
    | cons g1 g2 ih =>
      intro row hr
      rcases List.mem_cons.1 hr with rfl | hr
      · cases g1 with
        | same h1 => exact h1
        | glued h1 => simp; omega
      · exact ih row hr

/-- **C75**: Empty numbers are masked, and then the whole table is a masked array: its values are, in the order of the
label, for every field, record and repetition the ones that are written, and masked where a number is missing. -/
theorem C75_missing_numbers (E : Env) (hE : CutsAscii E) (mem : Memory) (l : Label) (file : Bytes) (rows : List (List Bytes))
    (h : Tabular E l file rows) (hu : l.uniform = []) (hc : ∀ row ∈ rows, row.length = (valueSlots 0 [] l.body).length)
    (hv : ∀ row ∈ rows, ∀ (i : Nat) (b : Bytes) (k : Nat) (ks : List Nat) (f : Field × List Group), row[i]? = some b →
      (valueSlots 0 [] l.body)[i]? = some (k, ks) → (leaves [] l.body)[k]? = some f → Legible E f.1.dataType b)
    (hx : ∃ row ∈ rows, ∃ (i : Nat) (b : Bytes) (k : Nat) (ks : List Nat) (f : Field × List Group), row[i]? = some b ∧
      (valueSlots 0 [] l.body)[i]? = some (k, ks) ∧ (leaves [] l.body)[k]? = some f ∧ Numbers f.1.dataType ∧ ¬ NotBlank b) :
    ∃ fields, readDelimited E mem l file = .ok (.masked fields) ∧
      List.Forall₂ (fun p (field : List (Option Cell)) => field.length = l.records * (reps p.1.2).prod ∧
        ∀ (r : Nat) (row : List Bytes), rows[r]? = some row → ∀ ks, Within (reps p.1.2) ks → ∃ (i : Nat) (b : Bytes) (o : Option Cell),
          (valueSlots 0 [] l.body)[i]? = some (p.2, ks) ∧ row[i]? = some b ∧
          field[r * (reps p.1.2).prod + lastFastest (reps p.1.2) ks]? = some o ∧ Becomes E p.1.1.dataType b o)
        (leaves [] l.body).zipIdx fields := by
  obtain ⟨texts, ht, hut, htn, hrecs⟩ := records_texts h
  have hN : ∀ row ∈ rows, row.length = numColumns 1 l.body := fun row hr => by rw [hc row hr, slots_length]
  have hN1 := columns_pos h.some_fields h.repeated
  obtain ⟨outs, h2, hread⟩ := fields_ok E mem l file rows texts (rows.map (rowOf l.fieldDelim.byte)) h.some_records hu h.repeated h.count htn hrecs
    (parse_rows E hE l _ rows texts ht hut (fun row hr => by
      have := hN row hr
      exact ⟨by rintro rfl; simp at this; omega, by omega⟩)) (by
    rw [List.forall₂_map_right_iff]
    refine List.forall₂_same.2 (fun row hr => ?_)
    rw [← hN row hr]
    exact rowOf_like _ row) hN hv
  have hF : List.Forall₂ (fun p (field : List (Option Cell)) => field.length = l.records * (reps p.1.2).prod ∧
        ∀ (r : Nat) (row : List Bytes), rows[r]? = some row → ∀ ks, Within (reps p.1.2) ks → ∃ (i : Nat) (b : Bytes) (o : Option Cell),
          (valueSlots 0 [] l.body)[i]? = some (p.2, ks) ∧ row[i]? = some b ∧
          field[r * (reps p.1.2).prod + lastFastest (reps p.1.2) ks]? = some o ∧ Becomes E p.1.1.dataType b o)
        (leaves [] l.body).zipIdx outs := by
    rw [List.forall₂_iff_zip] at h2 ⊢
    refine ⟨h2.1, ?_⟩
    intro p out hpo
    have hout := h2.2 hpo
    have hp := (List.of_mem_zip hpo).1
    have hget : (leaves [] l.body)[p.2]? = some p.1 := List.mem_zipIdx_iff_getElem?.1 hp
    obtain ⟨gs', e, hslot⟩ := column_slot l.body 0 p.2 [] p.1.2 p.1.1 hget
    rw [List.nil_append] at e
    rw [← e] at hslot
    simp only [Nat.zero_add] at hslot
    refine ⟨?_, ?_⟩
    · rw [← List.Forall₂.length_eq hout, values_length, h.count, prod_list]
    · intro r row hrow ks hks
      have hr' : r < rows.length := (List.getElem?_eq_some_iff.1 hrow).1
      have hs := hslot ks hks []
      rw [List.nil_append] at hs
      have hlt : column p.2 0 l.body p.1.2 ks < numColumns 1 l.body := by
        have := (List.getElem?_eq_some_iff.1 hs).1
        rwa [slots_length] at this
      obtain ⟨row', e1, e2⟩ := valueIn_get hr' hN hlt
      rw [hrow, Option.some.injEq] at e1
      subst e1
      have hv := values_get rows l.body p.2 p.1.2 r hr' ks hks
      obtain ⟨hlt', hv⟩ := List.getElem?_eq_some_iff.1 hv
      have hlt'' : r * prod (reps p.1.2) + ravel (reps p.1.2) ks < out.length := by
        rw [← List.Forall₂.length_eq hout]; exact hlt'
      have := (List.forall₂_iff_get.1 hout).2 _ hlt' hlt''
      simp only [List.get_eq_getElem] at this
      rw [hv] at this
      refine ⟨_, _, out[r * prod (reps p.1.2) + ravel (reps p.1.2) ks], hs, e2, ?_, this⟩
      rw [prod_list, ← ravel_last _ _ (List.Forall₂.length_eq hks)]
      exact List.getElem?_eq_getElem hlt''
  refine ⟨outs, ?_, hF⟩
  rw [hread, if_pos]
  rw [List.any_eq_true]
  obtain ⟨row, hrow, i, b, k, ks, f, x1, x2, x3, x4, x5⟩ := hx
  obtain ⟨hnd, hmem⟩ := C74_one_each l.body
  obtain ⟨f', gs', y1, y2⟩ := (hmem k ks).1 (List.mem_of_getElem? x2)
  rw [x3, Option.some.injEq] at y1
  obtain ⟨r, hr⟩ := List.getElem?_of_mem hrow
  have hlk : k < (leaves [] l.body).zipIdx.length := by
    rw [List.length_zipIdx]
    exact (List.getElem?_eq_some_iff.1 x3).1
  have hlo : k < outs.length := by rw [← List.Forall₂.length_eq hF]; exact hlk
  have hk := (List.forall₂_iff_get.1 hF).2 k hlk hlo
  simp only [List.get_eq_getElem, List.getElem_zipIdx, Nat.zero_add] at hk
  have hfk : (leaves [] l.body)[k]'(by rw [List.length_zipIdx] at hlk; exact hlk) = f := (List.getElem?_eq_some_iff.1 x3).2
  rw [hfk] at hk
  obtain ⟨i', b', o, z1, z2, z3, z4⟩ := hk.2 r row hr ks (by rw [y1]; exact y2)
  have hii : i' = i := by
    have h1 := List.getElem?_eq_some_iff.1 z1
    have h2 := List.getElem?_eq_some_iff.1 x2
    exact (hnd.getElem_inj_iff).1 (h1.2.trans h2.2.symm)
  subst hii
  rw [x1, Option.some.injEq] at z2
  subst z2
  refine ⟨outs[k], List.getElem_mem _, ?_⟩
  rw [List.any_eq_true]
  exact ⟨o, List.mem_of_getElem? z3, by rw [z4.1 ⟨x4, x5⟩]; rfl⟩

/-! ### uniformly sampled fields -/

theorem all_columns (l : Label) : numColumns 1 l.all = l.uniform.length + (valueSlots 0 [] l.body).length := by
  rw [slots_length]
  unfold Label.all
  induction l.uniform with
  | nil => simp
  | cons u us ih => simp only [List.foldr_cons, numColumns, List.length_cons, ih]; omega

theorem all_offset (l : Label) (f : Field) (rest : Forest) (hb : l.body = .field f rest) :
    fieldOffset l.uniform.length 0 l.all = l.uniform.length := by
  unfold Label.all
  rw [hb]
  have : ∀ (us : List Uniform) (n k : Nat), k = n + us.length →
      fieldOffset k n (us.foldr (fun u rest => Forest.field ⟨u.name, 0, 0, []⟩ rest) (.field f rest)) = us.length := by
    intro us
    induction us with
    | nil => intro n k h; simp only [List.foldr_nil, fieldOffset]; rw [if_pos (by simpa using h.symm)]; rfl
    | cons u us ih =>
      intro n k h
      simp only [List.foldr_cons, fieldOffset, List.length_cons] at h ⊢
      rw [if_neg (by omega), ih (n + 1) k (by omega)]
      omega
  exact this _ 0 _ (by omega)

theorem cell_inside (mem : Memory) (d : UInt8) (columns : Nat) (rows : List (List Bytes)) (r c : Nat) (row : List Bytes) (b : Bytes)
    (hr : rows[r]? = some row) (hb : row[c]? = some b) (h1 : c + 1 < row.length) (h2 : row.length ≤ columns) :
    cellAt mem columns (rows.map (rowOf d)) [] r c = .ok b := by
  unfold cellAt
  rw [if_neg (by simp), List.getElem?_map, hr]
  simp only [Option.map_some]
  unfold startByte
  rw [if_neg (by omega), if_neg (by omega)]
  have e1 := starts_get row 0 (c + 1) h1
  have e2 := starts_get row 0 c (by omega)
  simp only [rowOf, List.getD_eq_getElem?_getD, e1, e2, Option.getD_some, Nat.zero_add]
  exact congrArg _ (cell_text d row c b hb)

theorem mapM_first {α β : Type} (f : α → Except PyErr β) (xs : List α) (a : α) (ys : List α) (out : List β)
    (h : (xs ++ a :: ys).mapM f = .ok out) : ∃ us v ws, out = us ++ v :: ws ∧ us.length = xs.length ∧ xs.mapM f = .ok us ∧ f a = .ok v := by
  induction xs generalizing out with
  | nil =>
    rw [List.nil_append, List.mapM_cons] at h
    cases hv : f a with
    | error e => rw [hv] at h; cases h
    | ok v =>
      rw [hv] at h
      cases hw : ys.mapM f with
      | error e => rw [hw] at h; cases h
      | ok ws =>
        rw [hw] at h
        cases h
        exact ⟨[], v, ws, rfl, rfl, rfl, rfl⟩
  | cons x xs ih =>
    rw [List.cons_append, List.mapM_cons] at h
    cases hv : f x with
    | error e => rw [hv] at h; cases h
    | ok v =>
      rw [hv] at h
      cases hw : (xs ++ a :: ys).mapM f with
      | error e => rw [hw] at h; cases h
      | ok ws =>
        rw [hw] at h
        cases h
        obtain ⟨us, v', ws', h1, h2, h3, h4⟩ := ih ws hw
        refine ⟨v :: us, v', ws', by rw [h1]; rfl, by simp [h2], ?_, h4⟩
        rw [List.mapM_cons, hv, h3]
        rfl

/-- **C75**: Values of uniformly sampled fields are not in the file, but they are counted as if they were: when a table has
`u` of them, the column of the first field has, in each record, the value with number `u` instead of the first one. -/
theorem C75_uniform (E : Env) (hE : CutsAscii E) (mem : Memory) (l : Label) (file : Bytes) (rows : List (List Bytes)) (f : Field) (rest : Forest)
    (h : Tabular E l file rows) (hn : NamedTable l.table) (hb : l.body = .field f rest)
    (hc : ∀ row ∈ rows, row.length = (valueSlots 0 [] l.body).length) (hu : l.uniform.length + 1 < (valueSlots 0 [] l.body).length)
    (hv : ∀ row ∈ rows, ∀ b, row[l.uniform.length]? = some b → (∃ v, Means E false f.dataType b v) ∧ (Numbers f.dataType → NotBlank b))
    (cols : List (Str × List Cell)) (hok : readDelimited E mem l file = .ok (.frame cols)) :
    ∃ col, cols[l.uniform.length]? = some (f.name, col) ∧ col.length = l.records ∧
      ∀ (r : Nat) (row : List Bytes), rows[r]? = some row → ∃ (b : Bytes) (c : Cell), row[l.uniform.length]? = some b ∧ col[r]? = some c ∧
        ∀ v, Means E false f.dataType b v → Pds4Table.Spec.Is c v := by
  obtain ⟨texts, ht, hut, htn, hrecs⟩ := records_texts h
  have hpl : placesOf l = ⟨f, [], l.uniform.length⟩ :: ((leaves [] rest).zipIdx 1).map (fun p => (⟨p.1.1, p.1.2, l.uniform.length + p.2⟩ : Place)) := by
    unfold placesOf
    rw [fields_eq, hb]
    simp only [leaves, List.zipIdx_cons, List.map_cons, Nat.add_zero, Nat.zero_add]
  have hcells : (List.range l.records).mapM (fun r => cellAt mem (numColumns 1 l.all) (rows.map (rowOf l.fieldDelim.byte)) [] r l.uniform.length) =
      .ok ((List.range l.records).map (fun r => valueIn rows r l.uniform.length)) := by
    refine mapM_all _ _ _ (fun r hr => ?_)
    obtain ⟨row, e1, e2⟩ := valueIn_get (c := l.uniform.length) (by rw [h.count]; exact List.mem_range.1 hr) hc (by omega)
    have hl := hc row (List.mem_of_getElem? e1)
    exact cell_inside mem _ _ rows r _ row _ e1 e2 (by omega) (by rw [all_columns]; omega)
  obtain ⟨out, hconv, hbec⟩ := convertDelim_ok E f.dataType ((List.range l.records).map (fun r => valueIn rows r l.uniform.length))
    (by
      have := h.some_records
      intro c
      rw [List.map_eq_nil_iff, List.range_eq_nil] at c
      omega)
    (by
      intro b hbm
      obtain ⟨r, hr, rfl⟩ := List.mem_map.1 hbm
      obtain ⟨row, e1, e2⟩ := valueIn_get (c := l.uniform.length) (by rw [h.count]; exact List.mem_range.1 hr) hc (by omega)
      exact .inl (hv row (List.mem_of_getElem? e1) _ e2))
  have hsome : ∃ out' : List Cell, out = out'.map some := by
    have : ∀ o ∈ out, ∃ c, o = some c := by
      intro o ho
      obtain ⟨i, hi, rfl⟩ := List.getElem_of_mem ho
      have hi' := hi
      rw [← List.Forall₂.length_eq hbec] at hi'
      have hb' := (List.forall₂_iff_get.1 hbec).2 i hi' hi
      simp only [List.get_eq_getElem, List.getElem_map, List.getElem_range] at hb'
      have hir : i < rows.length := by rw [h.count]; simpa using hi'
      obtain ⟨row, e1, e2⟩ := valueIn_get (c := l.uniform.length) hir hc (by omega)
      obtain ⟨c, hc, -⟩ := hb'.2 (fun c => c.2 ((hv row (List.mem_of_getElem? e1) _ e2).2 c.1))
      exact ⟨c, hc⟩
    clear hconv hbec
    induction out with
    | nil => exact ⟨[], rfl⟩
    | cons o out ih =>
      obtain ⟨c, rfl⟩ := this o (by simp)
      obtain ⟨out', rfl⟩ := ih (fun o ho => this o (by simp [ho]))
      exact ⟨c :: out', rfl⟩
  obtain ⟨out', rfl⟩ := hsome
  have hlen : out'.length = l.records := by
    have := List.Forall₂.length_eq hbec
    simpa using this.symm
  unfold readDelimited at hok
  simp only at hok
  rw [hrecs, if_neg htn, parse_rows E hE l _ rows texts ht hut (fun row hr => by
    have := hc row hr
    rw [all_columns]
    exact ⟨by rintro rfl; simp at this; omega, by omega⟩)] at hok
  simp only at hok
  rw [hpl, readFields, List.map_nil, all_offset l f rest hb] at hok
  unfold extractDelim at hok
  rw [if_pos (.inl rfl), hcells] at hok
  simp only at hok
  rw [hconv] at hok
  simp only at hok
  cases hrf : readFields E mem l (rows.map (rowOf l.fieldDelim.byte)) [l.uniform.length]
      (((leaves [] rest).zipIdx 1).map (fun p => (⟨p.1.1, p.1.2, l.uniform.length + p.2⟩ : Place))) with
  | error e => rw [hrf] at hok; cases hok
  | ok fields =>
    rw [hrf] at hok
    simp only at hok
    by_cases hm : ((out'.map some :: fields).any (fun f => f.any Option.isNone)) = true
    · rw [if_pos hm] at hok; cases hok
    · rw [if_neg hm, List.map_cons, placeAll, List.map_nil] at hok
      have hpc : place l.records [] ((out'.map some).filterMap id) = .ok ⟨[], out'⟩ := by
        have : (out'.map some).filterMap id = out' := by
          rw [List.filterMap_map]; exact List.filterMap_some
        rw [this]
        unfold place
        rw [if_neg (by simp), if_pos hlen]
      rw [hpc] at hok
      simp only at hok
      cases hpa : placeAll l.records (((leaves [] rest).zipIdx 1).map (fun p => (⟨p.1.1, p.1.2, l.uniform.length + p.2⟩ : Place)))
          (fields.map (fun f => f.filterMap id)) with
      | error e => rw [hpa] at hok; cases hok
      | ok cs =>
        rw [hpa] at hok
        simp only at hok
        unfold frame at hok
        obtain ⟨hnames, hnd⟩ := fieldNames_eq l.table hn
        simp only at hok
        rw [if_neg (by simpa using hnd), hnames] at hok
        have hrel : rel 0 l.table.body = f.name :: rel 0 rest := by
          show rel 0 l.body = _
          rw [hb]; rfl
        rw [hrel, List.zip_append (by simp), List.zip_cons_cons] at hok
        cases hmm : ((l.table.uniform.map (·.name)).zip (l.table.uniform.map (fun u => (⟨[], u.values⟩ : Pds4Table.Column))) ++
            (f.name, (⟨[], out'⟩ : Pds4Table.Column)) :: (rel 0 rest).zip cs).mapM (fun p => toColumns l.table.records p.1 p.2) with
        | error e => rw [hmm] at hok; cases hok
        | ok blocks =>
          rw [hmm] at hok
          simp only [Except.map, Except.ok.injEq, Loaded.frame.injEq] at hok
          subst hok
          obtain ⟨us, v, ws, rfl, hus, hx, hy⟩ := mapM_first _ _ _ _ _ hmm
          have hU : us = l.table.uniform.map (fun u => [(u.name, u.values)]) := by
            clear hmm hus hy
            revert us
            induction l.table.uniform with
            | nil => intro us hx; cases hx; rfl
            | cons a as ih =>
              intro us hx
              simp only [List.map_cons, List.zip_cons_cons, List.mapM_cons] at hx
              cases hz : ((as.map (·.name)).zip (as.map (fun u => (⟨[], u.values⟩ : Pds4Table.Column)))).mapM (fun p => toColumns l.table.records p.1 p.2) with
              | error e => rw [hz] at hx; cases hx
              | ok zs =>
                rw [hz] at hx
                cases hx
                rw [ih zs hz]
                rfl
          simp only [toColumns, Except.ok.injEq] at hy
          subst hy
          refine ⟨out', ?_, hlen, ?_⟩
          · have : (us ++ [(f.name, out')] :: ws).flatten = l.uniform.map (fun u => (u.name, u.values)) ++ (f.name, out') :: ws.flatten := by
              rw [hU, List.flatten_append, List.flatten_cons]
              have e : ∀ as : List Uniform, (as.map (fun u => [(u.name, u.values)])).flatten = as.map (fun u => (u.name, u.values)) := by
                intro as
                induction as with
                | nil => rfl
                | cons a as ih => rw [List.map_cons, List.flatten_cons, ih]; rfl
              rw [e]; rfl
            rw [this, List.getElem?_map, List.getElem?_append_right (by simp)]
            simp only [List.length_map, Nat.sub_self, List.getElem?_cons_zero, Option.map_some]
            rw [columnName_plain _ (by
              have := hn.body
              rw [show l.table.body = .field f rest from hb] at this
              exact this.1)]
          · intro r row hrow
            have hr : r < rows.length := (List.getElem?_eq_some_iff.1 hrow).1
            obtain ⟨row', e1, e2⟩ := valueIn_get (c := l.uniform.length) hr hc (by omega)
            rw [hrow, Option.some.injEq] at e1
            subst e1
            have hro : r < out'.length := by rw [hlen, ← h.count]; exact hr
            have hb' := (List.forall₂_iff_get.1 hbec).2 r (by simp; rw [← h.count]; exact hr) (by simpa using hro)
            simp only [List.get_eq_getElem, List.getElem_map, List.getElem_range] at hb'
            obtain ⟨c, hc', hI⟩ := hb'.2 (fun c => c.2 ((hv row (List.mem_of_getElem? hrow) _ e2).2 c.1))
            rw [Option.some.injEq] at hc'
            refine ⟨_, out'[r], e2, List.getElem?_eq_getElem hro, ?_⟩
            rw [hc']
            exact hI

/-! ### what this looks like -/

/-- two text fields and an integer -/
def small (records : Nat) (us : List Uniform) : Label where
  offset := 0
  records := records
  objectLength := none
  maxRecord := none
  fieldDelim := .semicolon
  recordDelim := .lf
  uniform := us
  body := .field ⟨c!"A", 0, 0, c!"UTF8_String"⟩ (.field ⟨c!"B", 0, 0, c!"UTF8_String"⟩ (.field ⟨c!"N", 0, 0, c!"ASCII_Integer"⟩ .nil))

/-- three text fields -/
def texts3 (records : Nat) (us : List Uniform) : Label where
  offset := 0
  records := records
  objectLength := none
  maxRecord := none
  fieldDelim := .semicolon
  recordDelim := .lf
  uniform := us
  body := .field ⟨c!"A", 0, 0, c!"UTF8_String"⟩ (.field ⟨c!"B", 0, 0, c!"UTF8_String"⟩ (.field ⟨c!"C", 0, 0, c!"UTF8_String"⟩ .nil))

theorem texts3_named (us : List Uniform) (records : Nat) (h : ∀ u ∈ us, NameOk u.name ∧ u.name ∉ [c!"A", c!"B", c!"C"])
    (hd : (us.map (·.name)).Nodup) : NamedTable (texts3 records us).table where
  body := ⟨nameOk_of (by decide), by decide, ⟨nameOk_of (by decide), by decide, ⟨nameOk_of (by decide), by decide, trivial⟩⟩⟩
  uniform := h
  different := hd

theorem text_value (b : Bytes) (hb : b.getLast? ≠ some 0) :
    (∃ v, Means demoEnv false c!"UTF8_String" b v) ∧ (Numbers c!"UTF8_String" → NotBlank b) := by
  have := Means.text (E := demoEnv) (binary := false) (t := c!"UTF8_String") (b := b) (k := 0) (s := latin b) (by decide) hb rfl
  rw [List.replicate_zero, List.append_nil] at this
  exact ⟨⟨_, this⟩, fun c => absurd (by decide) c.1⟩

/-- a file with records of plain values -/
theorem plain_tabular (l : Label) (file : Bytes) (rows : List (List Bytes)) (hl : (∃ us, l = small rows.length us) ∨ ∃ us, l = texts3 rows.length us) (hne : rows ≠ [])
    (hp : ∀ row ∈ rows, ∀ v ∈ row, (59 : UInt8) ∉ v ∧ v.head? ≠ some 34)
    (hs : ∀ row ∈ rows, ¬ [10] <:+: List.intercalate [59] row)
    (hf : file = List.intercalate [10] (rows.map (List.intercalate [59]))) : Tabular demoEnv l file rows := by
  have hpos : 1 ≤ rows.length := by
    cases rows with
    | nil => exact absurd rfl hne
    | cons _ _ => simp
  have hw : ∃ texts, List.Forall₂ (RecordText 59) rows texts ∧
      (∀ t ∈ texts, ¬ [10] <:+: t ∧ (34 ∈ t → demoEnv.utf8 t ≠ none)) ∧ Lines [10] texts file := by
    refine ⟨rows.map (List.intercalate [59]), ?_, ?_, .inl hf⟩
    · rw [List.forall₂_map_right_iff]
      exact List.forall₂_same.2 (fun row hr => ⟨row, List.forall₂_same.2 (fun v hv => .plain (hp row hr v hv).1 (hp row hr v hv).2), rfl⟩)
    · intro t ht
      obtain ⟨row, hr, rfl⟩ := List.mem_map.1 ht
      exact ⟨hs row hr, fun _ => by simp [demoEnv]⟩
  rcases hl with ⟨us, rfl⟩ | ⟨us, rfl⟩ <;>
  exact {
    some_records := hpos
    some_fields := by simp [small, texts3, leaves]
    sized := ⟨by simp [small, texts3], by simp [small, texts3]⟩
    repeated := by intro g hg; simp [small, texts3, groups] at hg
    count := rfl
    written := hw }

/-- `a;b;5` and `c;d;6` where three records are announced -/
example : (recordsOf (small 3 []) [97, 59, 98, 59, 53, 10, 99, 59, 100, 59, 54]).length = 2 ∧
    readDelimited demoEnv (fun _ _ => 0) (small 3 []) [97, 59, 98, 59, 53, 10, 99, 59, 100, 59, 54] = .error .indexError := by
  refine ⟨by decide, C75_missing_records demoEnv demo_cuts _ _ _ [[[97], [98], [53]], [[99], [100], [54]]]
    [[97, 59, 98, 59, 53], [99, 59, 100, 59, 54]] (by simp [small, leaves]) ⟨by simp [small], by simp [small]⟩ (by simp) (by simp [small]) ?_ ?_ (by decide) ?_⟩
  · exact .cons ⟨_, List.forall₂_same.2 (fun v hv => .plain (by revert v; decide) (by revert v; decide)), by decide⟩
      (.cons ⟨_, List.forall₂_same.2 (fun v hv => .plain (by revert v; decide) (by revert v; decide)), by decide⟩ .nil)
  · intro t ht
    exact ⟨by revert t; decide, fun _ => by simp [demoEnv]⟩
  · decide

/-- `a;b;5;x;y`: two values too many -/
example : readDelimited demoEnv (fun _ _ => 0) (small 1 []) [97, 59, 98, 59, 53, 59, 120, 59, 121] = .error .indexError :=
  C75_too_many demoEnv demo_cuts _ _ _ [[[97], [98], [53], [120], [121]]]
    (plain_tabular _ _ _ (.inl ⟨[], rfl⟩) (by simp) (by decide) (by decide) (by decide)) (by decide) ⟨_, List.mem_singleton_self _, by decide⟩

/-- `a;b;c` and `d;e;f;g` (one value too many): the last value of the second record is `f;g`. -/
example : ∃ blocks, readDelimited demoEnv (fun _ _ => 0) (texts3 2 []) [97, 59, 98, 59, 99, 10, 100, 59, 101, 59, 102, 59, 103] = .ok (.frame blocks.flatten) ∧
      List.Forall₂ (Spec.Block demoEnv (texts3 2 []) [[[97], [98], [99]], [[100], [101], [102, 59, 103]]]) (leaves [] (texts3 2 []).body).zipIdx blocks := by
  refine C75_one_too_many demoEnv demo_cuts _ _ _ [[[97], [98], [99]], [[100], [101], [102], [103]]] _
    (plain_tabular _ _ _ (.inr ⟨[], rfl⟩) (by simp) (by decide) (by decide) (by decide)) rfl ?_
    (texts3_named [] 2 (by intro u hu; simp at hu) (by decide)) ?_ ?_
  · intro p hp
    simp only [texts3, leaves, List.mem_cons, List.not_mem_nil, or_false] at hp
    rcases hp with rfl | rfl | rfl <;> decide
  · exact .cons (.same rfl) (.cons (.glued (init := [[100], [101]]) (a := [102]) (b := [103]) rfl) .nil)
  · intro row hr i b k ks f h1 h2 h3
    have ht : f.1.dataType = c!"UTF8_String" := by
      have := List.mem_of_getElem? h3
      simp only [texts3, leaves, List.mem_cons, List.not_mem_nil, or_false] at this
      rcases this with rfl | rfl | rfl <;> rfl
    rw [ht]
    refine text_value b ?_
    have hb := List.mem_of_getElem? h1
    have : ∀ row ∈ ([[[97], [98], [99]], [[100], [101], [102, 59, 103]]] : List (List Bytes)), ∀ b ∈ row, b.getLast? ≠ some 0 := by decide
    exact this row hr b hb

example : shownTable (readDelimited demoEnv (fun _ _ => 0) (texts3 2 []) [97, 59, 98, 59, 99, 10, 100, 59, 101, 59, 102, 59, 103]) = .inr
    [(c!"A", [.inr c!"a", .inr c!"d"]), (c!"B", [.inr c!"b", .inr c!"e"]), (c!"C", [.inr c!"c", .inr c!"f;g"])] := by decide +kernel

/-- `a;b;5` and `c;d; `: the integer of the second record is missing. -/
example : ∃ fields, readDelimited demoEnv (fun _ _ => 0) (small 2 []) [97, 59, 98, 59, 53, 10, 99, 59, 100, 59, 32] = .ok (.masked fields) ∧
    fields.map (·.map Option.isNone) = [[false, false], [false, false], [false, true]] := ⟨_, rfl, by decide +kernel⟩

example : ∃ fields, readDelimited demoEnv (fun _ _ => 0) (small 2 []) [97, 59, 98, 59, 53, 10, 99, 59, 100, 59, 32] = .ok (.masked fields) := by
  obtain ⟨fields, h, -⟩ := C75_missing_numbers demoEnv demo_cuts (fun _ _ => 0) (small 2 []) [97, 59, 98, 59, 53, 10, 99, 59, 100, 59, 32]
    [[[97], [98], [53]], [[99], [100], [32]]]
    (plain_tabular _ _ _ (.inl ⟨[], rfl⟩) (by simp) (by decide) (by decide) (by decide)) rfl (by decide) (by
      intro row hr i b k ks f h1 h2 h3
      have hi : i < 3 := (List.getElem?_eq_some_iff.1 h2).1
      have : i = 0 ∨ i = 1 ∨ i = 2 := by omega
      simp only [List.mem_cons, List.not_mem_nil, or_false] at hr
      rcases this with rfl | rfl | rfl
      · simp [valueSlots, small] at h2
        rw [← h2.1] at h3
        simp [small, leaves] at h3
        rw [← h3]
        refine .inl (text_value b ?_)
        rcases hr with rfl | rfl <;> simp at h1 <;> rw [← h1] <;> decide
      · simp [valueSlots, small] at h2
        rw [← h2.1] at h3
        simp [small, leaves] at h3
        rw [← h3]
        refine .inl (text_value b ?_)
        rcases hr with rfl | rfl <;> simp at h1 <;> rw [← h1] <;> decide
      · simp [valueSlots, small] at h2
        rw [← h2.1] at h3
        simp [small, leaves] at h3
        rw [← h3]
        rcases hr with rfl | rfl <;> simp at h1 <;> rw [← h1]
        · exact .inl ⟨⟨_, .integer (s := c!"5") (n := 5) ⟨0, 0, [53], rfl, rfl⟩
            (.inl ⟨5, numeral_one '5' 5 (.inl ⟨by decide, rfl⟩) (by decide), rfl⟩) (by decide) (by decide)⟩, fun _ => ⟨53, by decide, by decide⟩⟩
        · exact .inr ⟨⟨by decide, by decide, by decide⟩, by rintro ⟨c, hc, hc'⟩; simp at hc; subst hc; exact hc' (by decide),
            _, .integer (s := c!"0") (n := 0) ⟨0, 0, [48], rfl, rfl⟩
              (.inl ⟨0, numeral_one '0' 0 (.inl ⟨by decide, rfl⟩) (by decide), rfl⟩) (by decide) (by decide)⟩)
    ⟨[[99], [100], [32]], by simp, 2, [32], 2, [], (⟨c!"N", 0, 0, c!"ASCII_Integer"⟩, []), rfl, rfl, rfl, ⟨by decide, by decide, by decide⟩, by rintro ⟨c, hc, hc'⟩; simp at hc; subst hc; exact hc' (by decide)⟩
  exact ⟨fields, h⟩

/-- one uniformly sampled field (its values are 0 and 1) -/
def sampled : Uniform := ⟨c!"T", [.elem (.int 0), .elem (.int 1)]⟩

/-- `a;b;c` and `d;e;f` with one uniformly sampled field: column `A` has what is written for `B`, column `B` what is written
for `C` (up to whatever is in memory), column `C` whatever is in memory. -/
example : shownTable (readDelimited demoEnv (fun _ _ => 6) (texts3 2 [sampled]) [97, 59, 98, 59, 99, 10, 100, 59, 101, 59, 102]) = .inr
    [(c!"T", [.inl 0, .inl 1]), (c!"A", [.inr c!"b", .inr c!"e"]), (c!"B", [.inr c!"c", .inr c!"f"]), (c!"C", [.inr c!"", .inr c!""])] ∧
  shownTable (readDelimited demoEnv (fun _ _ => 1) (texts3 2 [sampled]) [97, 59, 98, 59, 99, 10, 100, 59, 101, 59, 102]) = .inr
    [(c!"T", [.inl 0, .inl 1]), (c!"A", [.inr c!"b", .inr c!"e"]), (c!"B", [.inr c!"", .inr c!""]), (c!"C", [.inr c!";b;c", .inr c!";e;f"])] := by
  refine ⟨by decide +kernel, by decide +kernel⟩

example (cols : List (Str × List Cell))
    (h : readDelimited demoEnv (fun _ _ => 6) (texts3 2 [sampled]) [97, 59, 98, 59, 99, 10, 100, 59, 101, 59, 102] = .ok (.frame cols)) :
    ∃ col, cols[1]? = some (c!"A", col) := by
  obtain ⟨col, h1, -⟩ := C75_uniform demoEnv demo_cuts _ _ _ [[[97], [98], [99]], [[100], [101], [102]]] ⟨c!"A", 0, 0, c!"UTF8_String"⟩ _
    (plain_tabular _ _ _ (.inr ⟨[sampled], rfl⟩) (by simp) (by decide) (by decide) (by decide))
    (texts3_named [sampled] 2 (by intro u hu; simp [sampled] at hu; subst hu; exact ⟨nameOk_of (by decide), by decide⟩) (by decide)) rfl (by decide) (by decide)
    (by
      intro row hr b hb
      refine text_value b ?_
      simp only [List.mem_cons, List.not_mem_nil, or_false] at hr
      rcases hr with rfl | rfl <;> simp [texts3] at hb <;> rw [← hb] <;> decide) cols h
  exact ⟨col, h1⟩

/-- A record with a value too few, `a;b`: the last value is whatever is in memory. -/
example : shownTable (readDelimited demoEnv (fun _ _ => 1) (texts3 1 []) [97, 59, 98]) ≠
    shownTable (readDelimited demoEnv (fun _ _ => 2) (texts3 1 []) [97, 59, 98]) := by decide +kernel

end Verif.Pds4Delim
