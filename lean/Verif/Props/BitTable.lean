/-
C94, C95: bit columns in binary tables.
-/
import Verif.Lemmas.BitTable

namespace Verif.BitTable
open Verif.Py Verif.Format Verif.Format.Spec Verif.Datatypes Verif.Datatypes.Spec Verif.Bits Verif.Bits.Spec Verif.Table Verif.Table.Spec
open Verif.BitTable.Spec Verif.Float
open Verif.Scaling (Num)

theorem declares_unique (d : BitDef) (f g : List (Nat × Nat)) (hf : Declares d f) (hg : Declares d g) : f = g := by
  cases hf with
  | @plain _ _ s n =>
    generalize hs : (some (s : Int)) = s' at hg
    generalize hn : (some (n : Int)) = n' at hg
    cases hg with
    | plain => simp only [Option.some.injEq, Int.natCast_inj] at hs hn; rw [hs, hn]
  | @items _ _ s n m hm =>
    generalize hs : (some (s : Int)) = s' at hg
    generalize hn : (some (n : Int)) = n' at hg
    generalize hm : (some (m : Int)) = m' at hg
    cases hg with
    | items _ => simp only [Option.some.injEq, Int.natCast_inj] at hs hn hm; rw [hs, hn, hm]
    | plain => cases hm

theorem declares_all_unique (ids : Ids) (ds : List BitDef) (fss gss : List (List (Nat × Nat))) (hf : List.Forall₂ (Declared ids) ds fss)
    (hg : List.Forall₂ (Declared ids) ds gss) : fss = gss := by
  induction hf generalizing gss with
  | nil => cases hg; rfl
  | cons h _ ih =>
    cases hg with
    | cons h' hg => rw [declares_unique _ _ _ (declared_fixed ids _ _ h) (declared_fixed ids _ _ h'), ih _ hg]

theorem readAs_fields (ids : Ids) (a a' : Attrs) (o : BitObj) (h : ReadAs ids a a') (ho : a'.bits = some o) :
    ∃ fss, List.Forall₂ (Declared ids) o.defs fss := by
  cases h with
  | plain h => rw [h] at ho; cases ho
  | bits _ _ hd _ _ => injection ho with ho; rw [← ho]; exact ⟨_, hd⟩

theorem readAs_bits (ids : Ids) (a a' : Attrs) (o : BitObj) (fss : List (List (Nat × Nat))) (h : ReadAs ids a a') (ho : a'.bits = some o)
    (hd : List.Forall₂ (Declared ids) o.defs fss) : a'.bits = some ⟨o.defs, o.bitType,
      some (fss.flatten.map (fun f => some (f.1 : Int)), fss.flatten.map (fun f => some (f.2 : Int)))⟩ := by
  cases h with
  | plain h => rw [h] at ho; cases ho
  | bits _ _ hd' _ _ =>
    injection ho with ho
    rw [← ho] at hd
    rw [declares_all_unique ids _ _ _ hd hd', ← ho]

/-- the slots of read entries have read attributes -/
theorem slots_read (ids : Ids) (pre : Int) (es es' : List Format.Spec.Entry) (h : List.Forall₂ (EntryReadAs ids) es es') :
    ∀ s ∈ slots pre es', ∃ a, ReadAs ids a s.attrs := by
  have hcol : ∀ base c c', ColReadAs ids c c' → ∀ s ∈ slotsOf base c', ∃ a, ReadAs ids a s.attrs := by
    rintro base c c' ⟨a, ha, rfl⟩ s hs
    obtain ⟨i, _, rfl⟩ := List.mem_map.1 hs
    exact ⟨_, ha⟩
  intro s hs
  obtain ⟨e', he', hs⟩ := List.mem_flatMap.1 hs
  obtain ⟨k, hk⟩ := List.mem_iff_getElem?.1 he'
  have hlt := (List.getElem?_eq_some_iff.1 hk).1
  have hr := h.get (by rw [h.length_eq]; exact hlt) hlt
  have hk' := (List.getElem?_eq_some_iff.1 hk).2
  simp only [List.get_eq_getElem, hk'] at hr
  generalize es[k]'(by rw [h.length_eq]; exact hlt) = e at hr
  cases hr with
  | col hc => exact hcol _ _ _ hc s hs
  | cont hc =>
    obtain ⟨i, _, hs⟩ := List.mem_flatMap.1 hs
    obtain ⟨c', hc', hs⟩ := List.mem_flatMap.1 hs
    obtain ⟨j, hj⟩ := List.mem_iff_getElem?.1 hc'
    have hlt := (List.getElem?_eq_some_iff.1 hj).1
    have hr := hc.get (by rw [hc.length_eq]; exact hlt) hlt
    have hj' := (List.getElem?_eq_some_iff.1 hj).2
    simp only [List.get_eq_getElem, hj'] at hr
    exact hcol _ _ _ hr s hs

theorem unify_none (R : Rounding double) (cols : List TCol) (g : Attrs → Option Num)
    (h : ∀ c ∈ cols, c.fld.attrs.bits ≠ none → g c.fld.attrs = none) :
    List.Forall₂ (fun c (sc : Option Num) => c.fld.attrs.bits ≠ none → sc = none) cols
      (unify R (cols.map (fun c => g c.fld.attrs))) := by
  unfold unify
  split
  · rw [List.forall₂_map_right_iff, List.forall₂_same]
    exact h
  · rw [List.map_map, List.forall₂_map_right_iff, List.forall₂_same]
    intro c hc hb
    simp only [Function.comp_apply, h c hc hb, Option.map_none]

theorem unify_length (R : Rounding double) (l : List (Option Num)) : (unify R l).length = l.length := by
  unfold unify
  split
  · rfl
  · rw [List.length_map]

/-- values that are not numbers are not scaled -/
theorem scaled_bytes (a : Attrs) (vs : List Bytes) (ws : List Value) (h : List.Forall₂ (Scaled a) (vs.map .bytes) ws) :
    ws = vs.map .bytes := by
  induction vs generalizing ws with
  | nil => cases h; rfl
  | cons v vs ih =>
    cases h with
    | cons h1 h2 =>
      rw [ih _ h2]
      cases h1 with
      | plain _ _ => rfl
      | number _ h _ => cases h

theorem shows_bytes (c : Column) (vs : List Bytes) (hne : vs ≠ []) (h : Shows c (vs.map .bytes)) : c = .bytes vs := by
  cases vs with
  | nil => exact absurd rfl hne
  | cons v vs =>
    cases c with
    | ints t us => cases us <;> simp [Shows] at h
    | floats t us =>
      cases us with
      | nil => simp [Shows] at h
      | cons u us => cases u <;> simp [Shows] at h
    | bools us => cases us <;> simp [Shows] at h
    | texts us => cases us <;> simp [Shows] at h
    | bytes us =>
      unfold Shows at h
      rw [(List.map_injective_iff.2 (fun a b e => by injection e)) h]

/-- **C94.** A binary table with bit columns is read as its label says. The entries of the label (`first :: rest`) are read
as `first' :: rest'` (`EntryReadAs`: where a column has BIT_COLUMNs, it becomes a bit string of the byte order of its
DATA_TYPE, or of the integer type of its first BIT_COLUMN). Then, for every table whose columns can be placed, with any
number of rows (at least one), items and containers: the result has the columns of the table in label order; a column
without bit columns shows its values, scaled, as in C62 and C63; and in row `r` of a column with bit columns there is the
list of the fields its BIT_COLUMNs declare, in label order, each one the bits at its START_BIT and of its size in the
bytes at the place of the value in the file. -/
theorem C94_values (ids : Ids) (src : Source) (hv : ReadsVax src.vax32) (b : Table.Block) (start R L : Nat) (first first' : Col)
    (rest rest' : List Format.Spec.Entry) (hdefs : b.defs = (Entry.col first :: rest).map Entry.toDef)
    (hread : List.Forall₂ (EntryReadAs ids) (.col first :: rest) (.col first' :: rest'))
    (h : Binary { b with defs := (Entry.col first' :: rest').map Entry.toDef } first' rest' L)
    (hR : b.rows.getD 1 = R)
    (hpos : (∃ s ∈ slots (b.rowPrefix.getD 0) (.col first' :: rest'), s.attrs.bits ≠ none) → 0 < R) (hfile : start + R * L ≤ src.file.length) (val : Nat → Nat → Value)
    (hplain : ∀ (k : Nat) s, (slots (b.rowPrefix.getD 0) (.col first' :: rest'))[k]? = some s → s.attrs.bits = none →
      (∀ r < R, Encodes src.cp500 s.attrs.dataType s.size (bytesAt src.file (start + r * L + s.off.toNat) s.size) (val r k)) ∧
      (s.attrs.scale = none ∧ s.attrs.offset = none ∨
        s.attrs.dataType ≠ c!"BOOLEAN" ∧ Native s.attrs.dataType ∧ factor s.attrs ≠ 0 ∧ ∃ d, Means (underscored s.attrs.dataType) s.size d ∧
          ExactFor s.attrs (fun x => ∃ r < R, Amount (val r k) x) d))
    (hbits : ∀ (k : Nat) s o, (slots (b.rowPrefix.getD 0) (.col first' :: rest'))[k]? = some s → s.attrs.bits = some o →
      s.attrs.dataType ∈ [c!"MSB_BIT_STRING", c!"LSB_BIT_STRING"] ∧ s.attrs.scale = none ∧ s.attrs.offset = none ∧ 0 < s.size ∧
      ∀ fss, List.Forall₂ (Declared ids) o.defs fss → ∀ f ∈ fss.flatten, 1 ≤ f.1 ∧ f.1 - 1 + f.2 ≤ 8 * s.size) :
    ∃ out, readBitTable ids src b start = .ok (some out) ∧
      out.map Prod.fst = columnNames (b.rowPrefix.getD 0) (.col first' :: rest') ∧
      (∀ (k : Nat) q s, out[k]? = some q → (slots (b.rowPrefix.getD 0) (.col first' :: rest'))[k]? = some s → s.attrs.bits = none →
        ∃ c ws, q.2 = .plain c ∧ Shows c ws ∧ List.Forall₂ (Scaled s.attrs) ((List.range R).map (fun r => val r k)) ws) ∧
      (∀ (k : Nat) q s o fss, out[k]? = some q → (slots (b.rowPrefix.getD 0) (.col first' :: rest'))[k]? = some s →
        s.attrs.bits = some o → List.Forall₂ (Declared ids) o.defs fss →
        q.2 = .bits ((List.range R).map (fun r => fss.flatten.map (fun f =>
          field (Spec.bitsOf s.attrs.dataType (bytesAt src.file (start + r * L + s.off.toNat) s.size)) f.1 f.2)))) := by
  classical
  obtain ⟨b', hb'⟩ : ∃ b', b' = { b with defs := (Entry.col first' :: rest').map Entry.toDef } := ⟨_, rfl⟩
  have hpre : b'.rowPrefix = b.rowPrefix := by rw [hb']
  rw [← hb'] at h
  -- what the bit columns hold before they are cut up
  have htype : ∀ s ∈ slots (b.rowPrefix.getD 0) (.col first' :: rest'), s.attrs.bits ≠ none →
      s.attrs.dataType ∈ [c!"MSB_BIT_STRING", c!"LSB_BIT_STRING"] := by
    intro s hs hb
    obtain ⟨o, ho⟩ := Option.ne_none_iff_exists'.1 hb
    obtain ⟨k, hk⟩ := List.mem_iff_getElem?.1 hs
    exact (hbits k s o hk ho).1
  have hL : ∀ s ∈ slots (b.rowPrefix.getD 0) (.col first' :: rest'), 0 ≤ s.off ∧ s.off + s.size ≤ L := by
    intro s hs
    have h1 := h.offsets s (by rw [hpre]; exact hs)
    obtain ⟨_, n, _, _, hsuf, hLn, hin, _⟩ := h.size
    have h2 := hin s (by rw [hpre]; exact hs)
    omega
  have hcell : ∀ s ∈ slots (b.rowPrefix.getD 0) (.col first' :: rest'), ∀ r < R,
      (bytesAt src.file (start + r * L + s.off.toNat) s.size).length = s.size := by
    intro s hs r hr
    have h1 := hL s hs
    have h2 : r * L + L ≤ R * L := by
      calc r * L + L = (r + 1) * L := by rw [Nat.add_mul, Nat.one_mul]
        _ ≤ R * L := Nat.mul_le_mul_right _ hr
    unfold bytesAt
    rw [List.length_take, List.length_drop]
    omega
  obtain ⟨val', hval'⟩ : ∃ val' : Nat → Nat → Value, ∀ r (k : Nat) s, (slots (b.rowPrefix.getD 0) (.col first' :: rest'))[k]? = some s →
      val' r k = if s.attrs.bits = none then val r k else
        .bytes (bytesAt src.file (start + r * L + s.off.toNat) s.size) := by
    refine ⟨fun r k => match (slots (b.rowPrefix.getD 0) (.col first' :: rest'))[k]? with
      | some s => if s.attrs.bits = none then val r k else .bytes (bytesAt src.file (start + r * L + s.off.toNat) s.size)
      | none => .notFinite, ?_⟩
    intro r k s hs
    simp only [hs]
  obtain ⟨raw, hraw, hnames, hvals⟩ := C63_scaling src hv b' start R L first' rest' h (by rw [hb']; exact hR) hfile val' (by
    intro k s hs r hr
    rw [hpre] at hs
    rw [hval' r k s hs]
    split
    · rename_i hb
      exact (hplain k s hs hb).1 r hr
    · rename_i hb
      have hsm := List.mem_of_getElem? hs
      have ht := htype s hsm hb
      refine Encodes.plain (d := ⟨none, .void, s.size⟩) ?_ ?_ ?_ ?_ (.raw (hcell s hsm r hr))
      · apply Means.raw
        simp only [List.mem_cons, List.not_mem_nil, or_false] at ht
        rcases ht with ht | ht <;> rw [ht] <;> decide
      · simp only [List.mem_cons, List.not_mem_nil, or_false] at ht
        rcases ht with ht | ht <;> rw [ht] <;> decide
      · simp only [List.mem_cons, List.not_mem_nil, or_false] at ht
        rcases ht with ht | ht <;> rw [ht] <;> decide
      · simp only [List.mem_cons, List.not_mem_nil, or_false] at ht
        rcases ht with ht | ht <;> rw [ht] <;> rintro ⟨h | h, _⟩ <;> exact absurd h (by decide)) (by
    intro k s hs
    rw [hpre] at hs
    by_cases hb : s.attrs.bits = none
    · rcases (hplain k s hs hb).2 with h1 | ⟨h1, hn, h2, d, h3, h4⟩
      · exact Or.inl h1
      · refine Or.inr ⟨h1, hn, h2, d, h3, ?_⟩
        have : (fun x => ∃ r < R, Amount (val' r k) x) = (fun x => ∃ r < R, Amount (val r k) x) := by
          funext x
          apply propext
          constructor
          · rintro ⟨r, hr, ha⟩
            rw [hval' r k s hs, if_pos hb] at ha
            exact ⟨r, hr, ha⟩
          · rintro ⟨r, hr, ha⟩
            refine ⟨r, hr, ?_⟩
            rw [hval' r k s hs, if_pos hb]
            exact ha
        rw [this]
        exact h4
    · obtain ⟨o, ho⟩ := Option.ne_none_iff_exists'.1 hb
      exact Or.inl ⟨(hbits k s o hs ho).2.1, (hbits k s o hs ho).2.2.1⟩)
  rw [hpre] at hnames hvals
  have hrawbits : ∀ (k : Nat) q s, raw[k]? = some q → (slots (b.rowPrefix.getD 0) (.col first' :: rest'))[k]? = some s →
      s.attrs.bits ≠ none →
      q.2 = .bytes ((List.range R).map (fun r => bytesAt src.file (start + r * L + s.off.toNat) s.size)) := by
    intro k q s hq hs hb
    have hpos := hpos ⟨s, List.mem_of_getElem? hs, hb⟩
    obtain ⟨ws, h1, h2⟩ := hvals k q s hq hs
    have : (List.range R).map (fun r => val' r k) =
        ((List.range R).map (fun r => bytesAt src.file (start + r * L + s.off.toNat) s.size)).map .bytes := by
      rw [List.map_map]
      apply List.map_congr_left
      intro r _
      rw [hval' r k s hs, if_neg hb]
      rfl
    rw [this] at h2
    rw [scaled_bytes _ _ _ h2] at h1
    apply shows_bytes _ _ _ h1
    intro he
    have := congrArg List.length he
    simp only [List.length_map, List.length_range, List.length_nil] at this
    omega
  -- the expansion of the bit columns
  have hexpand : ∀ (k : Nat) q s o fss, raw[k]? = some q → (slots (b.rowPrefix.getD 0) (.col first' :: rest'))[k]? = some s →
      s.attrs.bits = some o → List.Forall₂ (Declared ids) o.defs fss → expandBits s.attrs q.2 =
        .ok (.bits ((List.range R).map (fun r => fss.flatten.map (fun f =>
          field (Spec.bitsOf s.attrs.dataType (bytesAt src.file (start + r * L + s.off.toNat) s.size)) f.1 f.2)))) := by
    intro k q s o fss hq hs ho hdecl
    have hsm := List.mem_of_getElem? hs
    have hb : s.attrs.bits ≠ none := by rw [ho]; simp
    have hpos := hpos ⟨s, hsm, hb⟩
    obtain ⟨a, ha⟩ := slots_read ids _ _ _ hread s hsm
    rw [hrawbits k q s hq hs hb, expandBits_column s.attrs o fss _ s.size (readAs_bits ids a _ o fss ha ho hdecl) (htype s hsm hb) (by
      intro he
      have := congrArg List.length he
      simp only [List.length_map, List.length_range, List.length_nil] at this
      omega) (hbits k s o hs ho).2.2.2.1 (by
      intro v hv
      obtain ⟨r, hr, rfl⟩ := List.mem_map.1 hv
      exact hcell s hsm r (List.mem_range.1 hr)) ((hbits k s o hs ho).2.2.2.2 fss hdecl), List.map_map]
    rfl
  -- the table
  obtain ⟨rows, tail, hparse, hN, hslots, _, _, htail⟩ := parse_placed b' first' rest' h.toPlaced
  rw [hpre] at hN hslots
  have hget : ∀ (k : Nat) r, rows[k]? = some r → ∃ s, (slots (b.rowPrefix.getD 0) (.col first' :: rest'))[k]? = some s ∧
      r.fld.attrs = s.attrs := by
    intro k r hr
    have := congrArg (fun l : List (Int × Nat × Attrs) => l[k]?) hslots
    simp only [List.getElem?_map, hr, Option.map_some] at this
    cases hs : (slots (b.rowPrefix.getD 0) (.col first' :: rest'))[k]? with
    | none => rw [hs] at this; cases this
    | some s =>
      rw [hs] at this
      simp only [Option.map_some, Option.some.injEq, Prod.mk.injEq] at this
      exact ⟨s, rfl, this.2.2⟩
  have hkeepR : ∀ r ∈ rows, (!contains r.fld.name c!"PLACEHOLDER") = true := by
    intro r hr
    have h1 : r.fld.name ∈ rows.map (·.fld.name) := List.mem_map.2 ⟨r, hr, rfl⟩
    rw [hN] at h1
    have h2 := h.plain r.fld.name (by rw [hpre]; exact h1)
    rw [← contains_iff] at h2
    simpa using h2
  have htailF : ∀ r ∈ tail, (!contains r.fld.name c!"PLACEHOLDER") = false ∧ r.fld.attrs = { dataType := voidType } := by
    intro r hr
    rcases htail with rfl | ⟨f, rfl, hf⟩
    · cases hr
    · rw [List.mem_singleton] at hr
      subst hr
      refine ⟨?_, hf.2.1⟩
      rw [hf.1]; rfl
  have hfilt : ((rows ++ tail).map tcol).filter (fun c => !contains c.fld.name c!"PLACEHOLDER") = rows.map tcol := by
    rw [List.map_append, List.filter_append, List.filter_eq_self.2, List.filter_eq_nil_iff.2, List.append_nil]
    · intro c hc
      obtain ⟨r, hr, rfl⟩ := List.mem_map.1 hc
      have := (htailF r hr).1
      simpa [tcol] using this
    · intro c hc
      obtain ⟨r, hr, rfl⟩ := List.mem_map.1 hc
      exact hkeepR r hr
  have hmem : ∀ c ∈ (rows ++ tail).map tcol, c.fld.attrs.bits ≠ none → ∃ r ∈ rows, c = tcol r := by
    intro c hc hb
    obtain ⟨r, hr, rfl⟩ := List.mem_map.1 hc
    rcases List.mem_append.1 hr with h1 | h1
    · exact ⟨r, h1, rfl⟩
    · exfalso
      apply hb
      show r.fld.attrs.bits = none
      rw [(htailF r h1).2]
  have hattr : ∀ c ∈ (rows ++ tail).map tcol, c.fld.attrs.bits ≠ none → c.fld.attrs.scale = none ∧ c.fld.attrs.offset = none := by
    intro c hc hb
    obtain ⟨r, hr, rfl⟩ := hmem c hc hb
    obtain ⟨k, hk⟩ := List.mem_iff_getElem?.1 hr
    obtain ⟨s, hs, e⟩ := hget k r hk
    have hb' : s.attrs.bits ≠ none := by rw [← e]; exact hb
    obtain ⟨o, ho⟩ := Option.ne_none_iff_exists'.1 hb'
    show r.fld.attrs.scale = none ∧ r.fld.attrs.offset = none
    rw [e]
    exact ⟨(hbits k s o hs ho).2.1, (hbits k s o hs ho).2.2.1⟩
  unfold readTable at hraw
  rw [hparse] at hraw
  have hrowsb : b'.rows = b.rows := by rw [hb']
  rw [hrowsb] at hraw
  unfold readBitTable
  rw [hdefs, addBits_entries ids _ _ hread]
  simp only
  rw [← hb', hparse]
  simp only at hraw ⊢
  cases hrecs : readRecords src.compressed src.file start (recordLength (rows ++ tail)).toNat (b.rows.getD 1) with
  | error e => rw [hrecs] at hraw; cases hraw
  | ok recs =>
    rw [hrecs] at hraw
    simp only at hraw ⊢
    cases hcols : ((rows ++ tail).map tcol).mapM (columnOf src recs) with
    | error e => rw [hcols] at hraw; cases hraw
    | ok columns =>
      rw [hcols] at hraw
      simp only at hraw ⊢
      generalize hcs : (rows ++ tail).map tcol = cols at *
      cases hfin : (((cols.map (fun c => c.fld.name)).zip (columns.zip ((unify src.R (cols.map (fun c => c.fld.attrs.scale))).zip
          (unify src.R (cols.map (fun c => c.fld.attrs.offset)))))).filter (fun q => !contains q.1 c!"PLACEHOLDER")).mapM (finish src) with
      | error e =>
        have hraw' : (match (Except.error e : Except PyErr (List (Str × Column))) with
          | .error e => (.error e : Except PyErr (Option (List (Str × Column))))
          | .ok out => .ok (some out)) = .ok (some raw) := by rw [← hfin]; exact hraw
        cases hraw'
      | ok out =>
        have hraw' : (match (Except.ok out : Except PyErr (List (Str × Column))) with
          | .error e => (.error e : Except PyErr (Option (List (Str × Column))))
          | .ok out => .ok (some out)) = .ok (some raw) := by rw [← hfin]; exact hraw
        simp only [Except.ok.injEq, Option.some.injEq] at hraw'
        subst hraw'
        have hlenrows : out.length = rows.length := by
          have h1 := congrArg List.length hnames
          have h2 := congrArg List.length hN
          simp only [List.length_map] at h1 h2
          omega
        obtain ⟨exp, zs, g1, g2, g3, g4, g5⟩ := finish_lift src (fun n => !contains n c!"PLACEHOLDER") cols columns _ _ out
          (mapM_len _ _ _ hcols) (by rw [unify_length, List.length_map]) (by rw [unify_length, List.length_map]) hfin
          (by
            intro c hc hb
            obtain ⟨r, hr, rfl⟩ := hmem c hc hb
            exact hkeepR r hr)
          (by
            rw [hfilt]
            rw [List.forall₂_iff_get]
            refine ⟨by rw [List.length_map, hlenrows], ?_⟩
            intro k h1 h2
            simp only [List.get_eq_getElem, List.getElem_map]
            by_cases hb : (tcol (rows[k]'(by simpa using h1))).fld.attrs.bits = none
            · exact Or.inl hb
            · right
              obtain ⟨s, hs, e⟩ := hget k _ (List.getElem?_eq_getElem (by simpa using h1))
              have e' : (tcol (rows[k]'(by simpa using h1))).fld.attrs = s.attrs := e
              rw [e'] at hb ⊢
              obtain ⟨o, ho⟩ := Option.ne_none_iff_exists'.1 hb
              obtain ⟨a, ha⟩ := slots_read ids _ _ _ hread s (List.mem_of_getElem? hs)
              obtain ⟨fss, hfss⟩ := readAs_fields ids _ _ o ha ho
              exact ⟨_, hexpand k out[k] s o fss (List.getElem?_eq_getElem h2) hs ho hfss⟩)
          (unify_none _ _ _ (fun c hc hb => (hattr c hc hb).1))
          (unify_none _ _ _ (fun c hc hb => (hattr c hc hb).2))
        have hzs : ∀ (k : Nat) z s, zs[k]? = some z → (slots (b.rowPrefix.getD 0) (.col first' :: rest'))[k]? = some s →
            z.1.fld.attrs = s.attrs ∧ out[k]? = some z.2.1 := by
          intro k z s hz hs
          have h1 : (zs.map (fun z => z.1))[k]? = some z.1 := by rw [List.getElem?_map, hz]; rfl
          have h2 : (zs.map (fun z => z.2.1))[k]? = some z.2.1 := by rw [List.getElem?_map, hz]; rfl
          rw [g4] at h2
          refine ⟨?_, h2⟩
          have h3 : (zs.map (fun z => z.1)) = rows.map tcol := g3.trans hfilt
          rw [h3, List.getElem?_map] at h1
          cases hr : rows[k]? with
          | none => rw [hr] at h1; cases h1
          | some r =>
            rw [hr] at h1
            injection h1 with h1
            obtain ⟨s', hs', e⟩ := hget k r hr
            rw [hs] at hs'
            injection hs' with hs'
            rw [← h1, hs', ← e]
            rfl
        rw [g1]
        simp only
        refine ⟨zs.map (fun z => (z.2.1.1, z.2.2)), ?_, ?_, ?_, ?_⟩
        · have : ∀ x, x = Except.ok (zs.map (fun z => (z.2.1.1, z.2.2))) → (match x with
            | .error e => (.error e : Except PyErr (Option (List (Str × BColumn))))
            | .ok out => .ok (some out)) = .ok (some (zs.map (fun z => (z.2.1.1, z.2.2)))) := by
            rintro x rfl; rfl
          exact this _ g2
        · rw [← hnames, ← g4, List.map_map, List.map_map]
          rfl
        · intro k q s hq hs hb
          rw [List.getElem?_map] at hq
          cases hz : zs[k]? with
          | none => rw [hz] at hq; cases hq
          | some z =>
            rw [hz] at hq
            injection hq with hq
            obtain ⟨e1, e2⟩ := hzs k z s hz hs
            have h5 := g5 z (List.mem_of_getElem? hz)
            rw [e1, expandBits_plain _ _ hb] at h5
            injection h5 with h5
            obtain ⟨ws, h6, h7⟩ := hvals k _ s e2 hs
            refine ⟨z.2.1.2, ws, ?_, h6, ?_⟩
            · rw [← hq, ← h5]
            · have : (List.range R).map (fun r => val' r k) = (List.range R).map (fun r => val r k) :=
                List.map_congr_left (fun r _ => by rw [hval' r k s hs, if_pos hb])
              rw [this] at h7
              exact h7
        · intro k q s o fss hq hs ho hd
          rw [List.getElem?_map] at hq
          cases hz : zs[k]? with
          | none => rw [hz] at hq; cases hq
          | some z =>
            rw [hz] at hq
            injection hq with hq
            obtain ⟨e1, e2⟩ := hzs k z s hz hs
            have h5 := g5 z (List.mem_of_getElem? hz)
            rw [e1, hexpand k _ s o fss e2 hs ho hd] at h5
            injection h5 with h5
            rw [← hq, ← h5]

/-! ### limits -/

theorem addBits_congr (ids : Ids) (pre post : List Def) (d d' : Def) (h : addBits ids d = addBits ids d') :
    addBitsAll ids (pre ++ d :: post) = addBitsAll ids (pre ++ d' :: post) := by
  induction pre with
  | nil => simp only [List.nil_append, addBitsAll, h]
  | cons p pre ih => simp only [List.cons_append, addBitsAll, ih]

/-- **C95 (the byte order is not that of the column).** If neither of two DATA_TYPEs says BIT_STRING, and the first
BIT_COLUMN of a column has an integer type, it makes no difference to the result which of them the column has: not even
if one is LSB_UNSIGNED_INTEGER and the other MSB_UNSIGNED_INTEGER. -/
theorem C95_data_type_ignored (ids : Ids) (src : Source) (b : Table.Block) (start : Nat) (pre post : List Def)
    (n : Str) (sb : Int) (w : Nat) (items ib io : Option Nat) (a : Attrs) (o : BitObj) (t t' u : Str)
    (ho : a.bits = some o) (hu : o.bitType = some u) (hI : IntegerName (underscored u))
    (ht : ¬ c!"BIT_STRING" <:+: underscored t) (ht' : ¬ c!"BIT_STRING" <:+: underscored t') :
    readBitTable ids src { b with defs := pre ++ .column n sb w items ib io { a with dataType := t } :: post } start =
    readBitTable ids src { b with defs := pre ++ .column n sb w items ib io { a with dataType := t' } :: post } start := by
  have hcon : ∀ t, ¬ c!"BIT_STRING" <:+: underscored t → contains (underscored t) c!"BIT_STRING" = false := by
    intro t h1
    by_contra hc
    exact h1 ((contains_iff _ _).1 (by simpa using hc))
  have hset : ∀ v v', setBitType ids v (some u) = setBitType ids v' (some u) := by
    intro v v'
    by_cases hi : ids.instrument ∈ msbInstruments
    · unfold setBitType; rw [if_pos hi, if_pos hi]
    · rw [setBitType_integer ids v u hi hI, setBitType_integer ids v' u hi hI]
  have hadd : addBitInfo ids { a with dataType := t } = addBitInfo ids { a with dataType := t' } := by
    unfold addBitInfo
    simp only [ho, hu]
    cases ids.iss with
    | true => rfl
    | false =>
      simp only [Bool.false_eq_true, if_false, hcon t ht, hcon t' ht', hset (underscored t) (underscored t')]
  have := addBits_congr ids pre post (.column n sb w items ib io { a with dataType := t })
    (.column n sb w items ib io { a with dataType := t' }) (by simp only [addBits, hadd])
  unfold readBitTable
  simp only [this]

theorem unify_at (R : Rounding double) (cols : List TCol) (g : Attrs → Option Num) (k : Nat) (c : TCol) (hc : cols[k]? = some c) :
    ∃ v, (unify R (cols.map (fun c => g c.fld.attrs)))[k]? = some v ∧
      (v = g c.fld.attrs ∨ v = (g c.fld.attrs).map (fun n => .float (R.fl n.val))) := by
  unfold unify
  split
  · exact ⟨g c.fld.attrs, by rw [List.getElem?_map, hc]; rfl, Or.inl rfl⟩
  · exact ⟨_, by rw [List.getElem?_map, List.getElem?_map, hc]; rfl, Or.inr rfl⟩

/-- what a table that could be read says about its columns -/
theorem read_ok (ids : Ids) (src : Source) (b : Table.Block) (start : Nat) (defs : List Def) (first : Col)
    (rest : List Format.Spec.Entry) (hdefs : addBitsAll ids b.defs = .ok defs) (h : Laid { b with defs := defs } first rest)
    (out : List (Str × BColumn)) (hout : readBitTable ids src b start = .ok (some out)) :
    ∃ L recs, recordSize { b with defs := defs } = some L ∧ readRecords src.compressed src.file start L (b.rows.getD 1) = .ok recs ∧
      ∀ s ∈ slots (b.rowPrefix.getD 0) (.col first :: rest), ∃ c col bc str, (c.fld.attrs = s.attrs ∧ c.fld.bytes = s.total) ∧
        sampleTypes s.attrs.dataType s.size true = .ok str ∧ npDtype str = some c.dt ∧
        columnOf src recs c = .ok col ∧ expandBits s.attrs col = .ok bc ∧
        ∃ sc of n out', scaleB src.R src.R' bc sc of = .ok out' ∧ (n, out') ∈ out ∧
          (sc = s.attrs.scale ∨ sc = s.attrs.scale.map (fun n => .float (src.R.fl n.val))) ∧
          (of = s.attrs.offset ∨ of = s.attrs.offset.map (fun n => .float (src.R.fl n.val))) := by
  obtain ⟨rows, tail, hcomp, hN, hslots, herase, _⟩ := laid_rows _ first rest h
  have htotal : rows.map (fun r => r.fld.bytes) = (slots (b.rowPrefix.getD 0) (.col first :: rest)).map (·.total) := by
    have := congrArg (List.map (fun r : Row => r.fld.bytes)) herase
    rw [List.map_map, List.map_map] at this
    rw [← fin_slots ⟨b.tableName, 1, b.bytes⟩, List.map_map]
    exact this
  unfold readBitTable at hout
  rw [hdefs] at hout
  simp only at hout
  cases hp : parseStructure { b with defs := defs } with
  | error e => rw [hp] at hout; cases hout
  | ok p =>
    obtain ⟨rs, q⟩ := p
    cases q with
    | none => rw [hp] at hout; cases hout
    | some q =>
      obtain ⟨cols, L⟩ := q
      rw [hp] at hout
      simp only at hout
      have hsize : recordSize { b with defs := defs } = some L := by unfold recordSize; rw [hp]
      -- the columns are those of the rows
      unfold parseStructure at hp
      rw [hcomp] at hp
      simp only at hp
      split at hp
      · cases hp
      cases hm : (rows ++ tail).mapM typed with
      | error e => rw [hm] at hp; cases hp
      | ok cols' =>
        rw [hm] at hp
        simp only at hp
        cases hd : structDtype cols' with
        | error e => rw [hd] at hp; cases hp
        | ok m =>
          rw [hd] at hp
          simp only [Except.ok.injEq, Prod.mk.injEq, Option.some.injEq] at hp
          obtain ⟨_, rfl, rfl⟩ := hp
          cases hrecs : readRecords src.compressed src.file start m (b.rows.getD 1) with
          | error e => rw [hrecs] at hout; cases hout
          | ok recs =>
            rw [hrecs] at hout
            simp only at hout
            cases hcols : cols'.mapM (columnOf src recs) with
            | error e => rw [hcols] at hout; cases hout
            | ok columns =>
              rw [hcols] at hout
              simp only at hout
              cases hexp : (cols'.zip columns).mapM (fun p => expandBits p.1.fld.attrs p.2) with
              | error e => rw [hexp] at hout; cases hout
              | ok expanded =>
                rw [hexp] at hout
                simp only at hout
                refine ⟨m, recs, hsize, hrecs, ?_⟩
                intro s hs
                obtain ⟨k, hk⟩ := List.mem_iff_getElem?.1 hs
                have hlen := congrArg List.length hslots
                simp only [List.length_map] at hlen
                have hks := (List.getElem?_eq_some_iff.1 hk).1
                have hkr : k < rows.length := by omega
                have hrow : width rows[k].fld = s.size ∧ rows[k].fld.attrs = s.attrs := by
                  have := congrArg (fun l : List (Int × Nat × Attrs) => l[k]?) hslots
                  simp only [List.getElem?_map, hk, List.getElem?_eq_getElem hkr, Option.map_some, Option.some.injEq, Prod.mk.injEq] at this
                  exact this.2
                have hget : (rows ++ tail)[k]? = some rows[k] := by
                  rw [List.getElem?_append_left hkr, List.getElem?_eq_getElem hkr]
                obtain ⟨c, hc1, hc2⟩ := mapM_get _ _ _ hm k _ hget
                obtain ⟨col, hcol1, hcol2⟩ := mapM_get _ _ _ hcols k _ hc1
                obtain ⟨bc, hbc1, hbc2⟩ := mapM_get _ _ _ hexp k (c, col) (by
                  rw [List.getElem?_zip_eq_some]; exact ⟨hc1, hcol1⟩)
                have hty : c.fld = rows[k].fld ∧ ∃ str, sampleTypes rows[k].fld.attrs.dataType (width rows[k].fld) true = .ok str ∧
                    npDtype str = some c.dt := by
                  unfold typed at hc2
                  cases hst : sampleTypes rows[k].fld.attrs.dataType (width rows[k].fld) true with
                  | error e => rw [hst] at hc2; cases hc2
                  | ok str =>
                    rw [hst] at hc2
                    simp only at hc2
                    cases hdt : npDtype str with
                    | none => rw [hdt] at hc2; cases hc2
                    | some d =>
                      rw [hdt] at hc2
                      simp only [Except.ok.injEq] at hc2
                      rw [← hc2]
                      exact ⟨rfl, str, rfl, hdt⟩
                obtain ⟨hf, str, hs1, hs2⟩ := hty
                rw [hrow.2, hrow.1] at hs1
                have hattr : c.fld.attrs = s.attrs := by rw [hf, hrow.2]
                have hbytes : c.fld.bytes = s.total := by
                  have := congrArg (fun l : List Nat => l[k]?) htotal
                  simp only [List.getElem?_map, hk, List.getElem?_eq_getElem hkr, Option.map_some, Option.some.injEq] at this
                  rw [hf, this]
                refine ⟨c, col, bc, str, ⟨hattr, hbytes⟩, hs1, hs2, hcol2, ?_, ?_⟩
                · rw [← hattr]
                  exact hbc2
                -- the last step
                obtain ⟨sc, hsc1, hsc2⟩ := unify_at src.R cols' Attrs.scale k c hc1
                obtain ⟨of, hof1, hof2⟩ := unify_at src.R cols' Attrs.offset k c hc1
                rw [hattr] at hsc2 hof2
                have hname : (!contains c.fld.name c!"PLACEHOLDER") = true := by
                  have h1 : c.fld.name ∈ rows.map (·.fld.name) := by
                    rw [hf]
                    exact List.mem_map.2 ⟨rows[k], List.getElem_mem hkr, rfl⟩
                  rw [hN] at h1
                  have h2 := h.plain c.fld.name h1
                  rw [← contains_iff] at h2
                  simpa using h2
                have hin : (c.fld.name, bc, sc, of) ∈ ((cols'.map (fun c => c.fld.name)).zip (expanded.zip
                    ((unify src.R (cols'.map (fun c => c.fld.attrs.scale))).zip (unify src.R (cols'.map (fun c => c.fld.attrs.offset)))))).filter
                    (fun q => !contains q.1 c!"PLACEHOLDER") := by
                  rw [List.mem_filter]
                  refine ⟨?_, hname⟩
                  apply List.mem_of_getElem? (i := k)
                  rw [List.getElem?_zip_eq_some, List.getElem?_zip_eq_some, List.getElem?_zip_eq_some]
                  refine ⟨?_, hbc1, hsc1, hof1⟩
                  rw [List.getElem?_map, hc1]
                  rfl
                obtain ⟨j, hj⟩ := List.mem_iff_getElem?.1 hin
                cases hlast : (((cols'.map (fun c => c.fld.name)).zip (expanded.zip
                    ((unify src.R (cols'.map (fun c => c.fld.attrs.scale))).zip (unify src.R (cols'.map (fun c => c.fld.attrs.offset)))))).filter
                    (fun q => !contains q.1 c!"PLACEHOLDER")).mapM (finishB src) with
                | error e =>
                  exfalso
                  have : ∀ x, x = Except.error e → (match x with
                    | .error e => (.error e : Except PyErr (Option (List (Str × BColumn))))
                    | .ok out => .ok (some out)) ≠ .ok (some out) := by
                    rintro x rfl h; cases h
                  exact this _ hlast hout
                | ok out' =>
                  have : ∀ x, x = Except.ok out' → (match x with
                    | .error e => (.error e : Except PyErr (Option (List (Str × BColumn))))
                    | .ok out => .ok (some out)) = .ok (some out) → out' = out := by
                    rintro x rfl h; injection h with h; injection h
                  have := this _ hlast hout
                  subst this
                  obtain ⟨y, hy1, hy2⟩ := mapM_get _ _ _ hlast j _ hj
                  unfold finishB at hy2
                  simp only at hy2
                  cases hsb : scaleB src.R src.R' bc sc of with
                  | error e => rw [hsb] at hy2; cases hy2
                  | ok o =>
                    rw [hsb] at hy2
                    injection hy2 with hy2
                    exact ⟨sc, of, c.fld.name, o, hsb, by have := List.mem_of_getElem? hy1; rw [← hy2] at this; exact this, hsc2, hof2⟩

theorem columnOf_cases (src : Source) (recs : List Bytes) (c : TCol) (col : Column) (hc : columnOf src recs c = .ok col) :
    (∃ w vs, col = .floats w vs) ∨ ∃ col0, col0 = decodeAll c.dt (recs.map (fun r => (r.drop c.sb.toNat).take c.dt.size)) ∧
      (col = col0 ∨ (∃ vs : List Bytes, col0 = .bytes vs ∧ col = .texts (vs.map (·.map src.cp500))) ∨
        ∃ t vs, col0 = .ints t vs ∧ col = .bools (vs.map (fun v => decide (v ≠ 0)))) := by
  unfold columnOf at hc
  simp only at hc
  split at hc
  · refine Or.inl ?_
    unfold ibmColumn at hc
    split at hc
    · split at hc
      · cases hc
      · split at hc
        · cases hc
        · injection hc with hc
          exact ⟨_, _, hc.symm⟩
    · split at hc
      · cases hc
      · injection hc with hc
        exact ⟨_, _, hc.symm⟩
  split at hc
  · injection hc with hc
    exact Or.inl ⟨_, _, hc.symm⟩
  injection hc with hc
  refine Or.inr ⟨_, rfl, ?_⟩
  rw [← hc]
  generalize decodeAll c.dt (recs.map (fun r => (r.drop c.sb.toNat).take c.dt.size)) = col0
  by_cases hB : c.fld.attrs.dataType = c!"BOOLEAN"
  · rw [if_pos hB, hB]
    have : contains c!"BOOLEAN" c!"EBCDIC" = false := by decide
    rw [this]
    simp only [Bool.false_eq_true, if_false]
    cases col0 <;> simp
  · rw [if_neg hB]
    by_cases hE : contains c.fld.attrs.dataType c!"EBCDIC" = true
    · rw [if_pos hE]
      cases col0 <;> simp
    · rw [if_neg hE]
      exact Or.inl rfl

theorem decode_numbers (d : Dtype) (h : d.kind = .int ∨ d.kind = .uint ∨ d.kind = .float) (cells : List Bytes) :
    (∃ t vs, decodeAll d cells = .ints t vs) ∨ ∃ t vs, decodeAll d cells = .floats t vs := by
  unfold decodeAll
  rcases h with h | h | h <;> rw [h] <;> simp only
  · exact Or.inl ⟨_, _, rfl⟩
  · exact Or.inl ⟨_, _, rfl⟩
  · split
    · exact Or.inr ⟨_, _, rfl⟩
    · exact Or.inr ⟨_, _, rfl⟩

/-- bit columns are not made from numbers -/
theorem expandBits_numbers (a : Attrs) (o : BitObj) (p : List (Option Int) × List (Option Int)) (ho : a.bits = some o)
    (hl : o.lists = some p) (col : Column) (bc : BColumn) (h : ∀ vs, col ≠ .bytes vs) : expandBits a col ≠ .ok bc := by
  obtain ⟨defs, bt, l⟩ := o
  simp only at hl
  subst hl
  unfold expandBits
  rw [ho]
  cases col with
  | bytes vs => exact absurd rfl (h vs)
  | ints t vs => simp only; split <;> simp
  | floats t vs => simp only; split <;> simp
  | bools vs => simp only; split <;> simp
  | texts vs => simp only; split <;> simp

theorem expandBits_empty (a : Attrs) (o : BitObj) (p : List (Option Int) × List (Option Int)) (ho : a.bits = some o)
    (hl : o.lists = some p) (src : Source) (c : TCol) (col : Column) (bc : BColumn) (hc : columnOf src [] c = .ok col) :
    expandBits a col ≠ .ok bc := by
  rcases columnOf_cases src [] c col hc with ⟨w, us, rfl⟩ | ⟨col0, h0, hcol⟩
  · exact expandBits_numbers a o p ho hl _ bc (by intro vs h; cases h)
  by_cases hv : ∃ vs, col = .bytes vs
  · obtain ⟨vs, rfl⟩ := hv
    have hvs : vs = [] := by
      rcases hcol with h | ⟨us, _, h⟩ | ⟨t, us, _, h⟩
      · rw [h0] at h
        unfold decodeAll at h
        simp only [List.map_nil] at h
        cases hk : c.dt.kind with
        | int => rw [hk] at h; cases h
        | uint => rw [hk] at h; cases h
        | float =>
          rw [hk] at h
          simp only at h
          split at h <;> cases h
        | bytes => rw [hk] at h; injection h
        | void => rw [hk] at h; injection h
      · cases h
      · cases h
    subst hvs
    obtain ⟨defs, bt, l⟩ := o
    simp only at hl
    subst hl
    unfold expandBits
    rw [ho]
    intro h
    cases h
  · exact expandBits_numbers a o p ho hl col bc (fun vs h => hv ⟨vs, h⟩)

theorem readAs_lists (ids : Ids) (a a' : Attrs) (h : ReadAs ids a a') (hb : a'.bits ≠ none) :
    ∃ o p, a'.bits = some o ∧ o.lists = some p := by
  cases h with
  | plain h => exact absurd h hb
  | bits _ _ _ _ _ => exact ⟨_, _, rfl, rfl⟩

theorem no_records (src : Source) (b : Table.Block) (start L : Nat) (hL : 0 < L)
    (hrows : b.rows = some 0 ∨ src.compressed = false ∧ src.file.length < start + L) (recs : List Bytes)
    (h2 : readRecords src.compressed src.file start L (b.rows.getD 1) = .ok recs) : recs = [] := by
  unfold readRecords at h2
  rw [if_neg (by omega)] at h2
  rcases hrows with h0 | ⟨hc, hlen⟩
  · rw [h0] at h2
    simp only [Option.getD_some, Nat.zero_mul, List.take_zero, List.length_nil, Nat.zero_mod, Nat.zero_div, Nat.zero_min, records] at h2
    split at h2
    · simp only [ne_eq, not_true, if_false] at h2
      injection h2 with h2
      exact h2.symm
    · injection h2 with h2
      exact h2.symm
  · rw [hc] at h2
    simp only [Bool.false_eq_true, if_false] at h2
    have : (src.file.drop start).length / L = 0 := by
      apply Nat.div_eq_of_lt
      rw [List.length_drop]
      omega
    rw [this, Nat.min_zero, records] at h2
    injection h2 with h2
    exact h2.symm

/-- **C95 (no rows).** A table with a bit column cannot be read if there is no row to read: if its label says ROWS = 0,
or if its (uncompressed) file ends before the first row does. (Without bit columns, there is an empty table.) -/
theorem C95_no_rows (ids : Ids) (src : Source) (b : Table.Block) (start L : Nat) (first first' : Col)
    (rest rest' : List Format.Spec.Entry) (hdefs : b.defs = (Entry.col first :: rest).map Entry.toDef)
    (hread : List.Forall₂ (EntryReadAs ids) (.col first :: rest) (.col first' :: rest'))
    (h : Binary { b with defs := (Entry.col first' :: rest').map Entry.toDef } first' rest' L)
    (hrows : b.rows = some 0 ∨ src.compressed = false ∧ src.file.length < start + L)
    (hb : ∃ s ∈ slots (b.rowPrefix.getD 0) (.col first' :: rest'), s.attrs.bits ≠ none) :
    ∀ out, readBitTable ids src b start ≠ .ok (some out) := by
  intro out hout
  obtain ⟨L', recs, h1, h2, h3⟩ := read_ok ids src b start _ first' rest' (by rw [hdefs, addBits_entries ids _ _ hread]) h.toLaid out hout
  rw [recordSize_binary _ first' rest' L h] at h1
  injection h1 with h1
  subst h1
  have hL := h.size.1
  have hrecs := no_records src b start L hL hrows recs h2
  obtain ⟨s, hs, hb⟩ := hb
  obtain ⟨c, col, bc, str, _, _, _, h4, h5, _⟩ := h3 s hs
  rw [hrecs] at h4
  obtain ⟨a, ha⟩ := slots_read ids _ _ _ hread s hs
  obtain ⟨o, p, ho, hl⟩ := readAs_lists ids _ _ ha hb
  exact expandBits_empty s.attrs o p ho hl src c col bc h4 h5

theorem lookup_mem {α β : Type} [BEq α] [LawfulBEq α] (l : List (α × β)) (a : α) (b : β) (h : l.lookup a = some b) : ∃ b', (a, b') ∈ l := by
  induction l with
  | nil => cases h
  | cons p l ih =>
    obtain ⟨x, y⟩ := p
    rw [List.lookup_cons] at h
    by_cases e : (a == x) = true
    · exact ⟨y, by rw [eq_of_beq e]; exact List.mem_cons_self ..⟩
    · have e' : (a == x) = false := by simpa using e
      rw [e'] at h
      obtain ⟨b', hb⟩ := ih h
      exact ⟨b', List.mem_cons_of_mem _ hb⟩

/-- **C95 (other bit strings).** If the DATA_TYPE of a bit column says BIT_STRING but is not MSB_BIT_STRING or LSB_BIT_STRING
(for example BIT_STRING, or VAX_BIT_STRING), the table cannot be read as a binary table. -/
theorem C95_other_bit_strings (ids : Ids) (src : Source) (b : Table.Block) (start : Nat) (first first' : Col)
    (rest rest' : List Format.Spec.Entry) (hdefs : b.defs = (Entry.col first :: rest).map Entry.toDef)
    (hread : List.Forall₂ (EntryReadAs ids) (.col first :: rest) (.col first' :: rest'))
    (h : Laid { b with defs := (Entry.col first' :: rest').map Entry.toDef } first' rest')
    (s : Slot) (hs : s ∈ slots (b.rowPrefix.getD 0) (.col first' :: rest')) (ht : c!"BIT_STRING" <:+: underscored s.attrs.dataType)
    (hI : ¬ c!"INTEGER" <:+: underscored s.attrs.dataType)
    (hn : underscored s.attrs.dataType ∉ [c!"MSB_BIT_STRING", c!"LSB_BIT_STRING"]) :
    ∀ out, readBitTable ids src b start ≠ .ok (some out) := by
  intro out hout
  obtain ⟨L, recs, _, _, h3⟩ := read_ok ids src b start _ first' rest' (by rw [hdefs, addBits_entries ids _ _ hread]) h out hout
  obtain ⟨c, col, bc, str, _, h4, _⟩ := h3 s hs
  have hcon : ∀ x y : Str, ¬ y <:+: x → contains x y = false := by
    intro x y h1
    by_contra hc
    exact h1 ((contains_iff _ _).1 (by simpa using hc))
  unfold sampleTypes at h4
  rw [if_neg] at h4
  · simp only at h4
    split at h4
    · cases h4
    split at h4
    · cases h4
    split at h4
    · rename_i flt _ _ v hv
      obtain ⟨x, hx⟩ := lookup_mem _ _ _ hv
      generalize underscored s.attrs.dataType = t at *
      simp only [typeTable, List.mem_cons, Prod.mk.injEq, List.not_mem_nil, or_false] at hx
      rcases hx with hx | hx | hx | hx | hx | hx | hx | hx | hx | hx | hx | hx | hx | hx | hx | hx | hx | hx | hx | hx
      all_goals
        obtain ⟨rfl, _⟩ := hx
        first
          | exact absurd ht (by decide)
          | exact absurd (by decide) hn
    · cases h4
  · rw [hcon _ _ hI]
    intro hc
    simp only [Bool.false_or, Bool.and_eq_true, beq_iff_eq] at hc
    rw [hc.1] at ht
    exact absurd ht (by decide)

/-- **C95 (columns of numbers).** If the first BIT_COLUMN of a column has a type for bytes (like MSB_BIT_STRING or CHARACTER), the
DATA_TYPE of the column stays as it is (`TypedAs`); and if that is a type for numbers, the table cannot be read as a binary table. -/
theorem C95_numbers (ids : Ids) (src : Source) (b : Table.Block) (start : Nat) (first first' : Col)
    (rest rest' : List Format.Spec.Entry) (hdefs : b.defs = (Entry.col first :: rest).map Entry.toDef)
    (hread : List.Forall₂ (EntryReadAs ids) (.col first :: rest) (.col first' :: rest'))
    (h : Laid { b with defs := (Entry.col first' :: rest').map Entry.toDef } first' rest')
    (s : Slot) (hs : s ∈ slots (b.rowPrefix.getD 0) (.col first' :: rest')) (hb : s.attrs.bits ≠ none) (d : Dtype)
    (ht : Means (underscored s.attrs.dataType) s.size d) (hd : d.kind = .int ∨ d.kind = .uint ∨ d.kind = .float) :
    ∀ out, readBitTable ids src b start ≠ .ok (some out) := by
  intro out hout
  obtain ⟨L, recs, _, _, h3⟩ := read_ok ids src b start _ first' rest' (by rw [hdefs, addBits_entries ids _ _ hread]) h out hout
  obtain ⟨c, col, bc, str, _, h4, h5, h6, h7, _⟩ := h3 s hs
  obtain ⟨str', h4', h5', _⟩ := C10_types_mean_what_they_say _ _ d ht
  rw [h4] at h4'
  injection h4' with h4'
  subst h4'
  rw [h5] at h5'
  injection h5' with h5'
  obtain ⟨a, ha⟩ := slots_read ids _ _ _ hread s hs
  obtain ⟨o, p, ho, hl⟩ := readAs_lists ids _ _ ha hb
  refine expandBits_numbers s.attrs o p ho hl col bc ?_ h7
  intro vs hvs
  rcases columnOf_cases _ _ _ _ h6 with ⟨w, us, hf⟩ | ⟨col0, h0, hcol⟩
  · rw [hf] at hvs; cases hvs
  rcases hcol with h | ⟨us, _, h⟩ | ⟨t, us, _, h⟩
  · rw [h] at hvs
    rw [h0] at hvs
    rcases decode_numbers c.dt (by rw [h5']; exact hd) (recs.map (fun r => (r.drop c.sb.toNat).take c.dt.size)) with ⟨t, us, e⟩ | ⟨t, us, e⟩
    · rw [e] at hvs; cases hvs
    · rw [e] at hvs; cases hvs
  · rw [h] at hvs; cases hvs
  · rw [h] at hvs; cases hvs

/-- **C95 (scaled bit columns).** A table with a bit column that has a SCALING_FACTOR that is not an integer, or an OFFSET, cannot
be read as a binary table (unless they are 0, that is). -/
theorem C95_scaled (ids : Ids) (src : Source) (b : Table.Block) (start : Nat) (first first' : Col)
    (rest rest' : List Format.Spec.Entry) (hdefs : b.defs = (Entry.col first :: rest).map Entry.toDef)
    (hread : List.Forall₂ (EntryReadAs ids) (.col first :: rest) (.col first' :: rest'))
    (h : Laid { b with defs := (Entry.col first' :: rest').map Entry.toDef } first' rest')
    (s : Slot) (hs : s ∈ slots (b.rowPrefix.getD 0) (.col first' :: rest')) (hb : s.attrs.bits ≠ none) (x : ℚ)
    (hx : x ≠ 0) (hrep : Rep double x) (hsc : s.attrs.scale = some (.float x) ∨ ∃ n : Num, s.attrs.offset = some n ∧ n.val = x) :
    ∀ out, readBitTable ids src b start ≠ .ok (some out) := by
  intro out hout
  obtain ⟨L, recs, _, _, h3⟩ := read_ok ids src b start _ first' rest' (by rw [hdefs, addBits_entries ids _ _ hread]) h out hout
  obtain ⟨c, col, bc, str, _, h4, h5, h6, h7, sc, of, _, o, h8, _, h9, h10⟩ := h3 s hs
  obtain ⟨a, ha⟩ := slots_read ids _ _ _ hread s hs
  obtain ⟨bo, p, ho, hl⟩ := readAs_lists ids _ _ ha hb
  have hbc : ∃ vs, bc = .bits vs := by
    obtain ⟨defs, bt, l⟩ := bo
    simp only at hl
    subst hl
    unfold expandBits at h7
    rw [ho] at h7
    cases col with
    | bytes vs =>
      simp only at h7
      split at h7
      · cases h7
      · split at h7
        · cases h7
        · injection h7 with h7
          exact ⟨_, h7.symm⟩
    | ints t vs => simp only at h7; split at h7 <;> cases h7
    | floats t vs => simp only at h7; split at h7 <;> cases h7
    | bools vs => simp only at h7; split at h7 <;> cases h7
    | texts vs => simp only at h7; split at h7 <;> cases h7
  obtain ⟨vs, rfl⟩ := hbc
  have hfl : src.R.fl x = x := src.R.exact x hrep
  rcases hsc with hsc | ⟨n, hof, hn⟩
  · have : sc = some (.float x) := by
      rcases h9 with h | h
      · rw [h, hsc]
      · rw [h, hsc]
        show some (Num.float (src.R.fl (Num.val (.float x)))) = _
        rw [show Num.val (.float x) = x from rfl, hfl]
    unfold scaleB at h8
    simp only [this, if_neg hx] at h8
    cases h8
  · have : ∃ m : Num, of = some m ∧ m.val = x := by
      rcases h10 with h | h
      · exact ⟨n, by rw [h, hof], hn⟩
      · refine ⟨.float (src.R.fl n.val), by rw [h, hof]; rfl, ?_⟩
        show src.R.fl n.val = x
        rw [hn, hfl]
    obtain ⟨m, hm1, hm2⟩ := this
    have hm3 : ¬ m.val = 0 := by rw [hm2]; exact hx
    unfold scaleB at h8
    simp only [hm1, if_neg hm3] at h8
    split at h8
    · cases h8
    · cases h8

theorem zeroIndex_length : ∀ (l : List (Option Int)) (r : List Int), zeroIndex l = .ok r → r.length = l.length
  | [], r, h => by simp only [zeroIndex, Except.ok.injEq] at h; rw [← h]; rfl
  | none :: _, r, h => by simp only [zeroIndex] at h; cases h
  | some v :: vs, r, h => by
    simp only [zeroIndex] at h
    cases hz : zeroIndex vs with
    | error e => rw [hz] at h; cases h
    | ok q =>
      rw [hz] at h
      simp only [Except.ok.injEq] at h
      rw [← h, List.length_cons, List.length_cons, zeroIndex_length vs q hz]

theorem allSome_length : ∀ (l : List (Option Int)) (r : List Int), allSome l = .ok r → r.length = l.length
  | [], r, h => by simp only [allSome, Except.ok.injEq] at h; rw [← h]; rfl
  | none :: _, r, h => by simp only [allSome] at h; cases h
  | some v :: vs, r, h => by
    simp only [allSome] at h
    cases hz : allSome vs with
    | error e => rw [hz] at h; cases h
    | ok q =>
      rw [hz] at h
      simp only [Except.ok.injEq] at h
      rw [← h, List.length_cons, List.length_cons, allSome_length vs q hz]

/-- the lists of a bit column have one text for each field -/
theorem expandBits_lengths (a : Attrs) (defs : List BitDef) (bt : Option Str) (starts sizes : List (Option Int))
    (ho : a.bits = some ⟨defs, bt, some (starts, sizes)⟩) (hl : starts.length = sizes.length) (col : Column) (bc : BColumn)
    (h : expandBits a col = .ok bc) : ∃ vs, bc = .bits vs ∧ ∀ v ∈ vs, v.length = starts.length := by
  unfold expandBits at h
  rw [ho] at h
  cases col with
  | bytes vs =>
    simp only at h
    split at h
    · cases h
    · split at h
      · cases h
      · rename_i strs _ _ out hout
        injection h with h
        refine ⟨_, h.symm, ?_⟩
        unfold spliceColumn at hout
        cases hz : zeroIndex starts with
        | error e => rw [hz] at hout; cases hout
        | ok st =>
          cases ha : allSome sizes with
          | error e => rw [hz, ha] at hout; cases hout
          | ok sz =>
            rw [hz, ha] at hout
            injection hout with hout
            intro v hv
            rw [← hout] at hv
            obtain ⟨t, _, rfl⟩ := List.mem_map.1 hv
            unfold splitBits
            have h1 := zeroIndex_length _ _ hz
            have h2 := allSome_length _ _ ha
            rw [List.length_map, List.length_zip, List.length_zipWith]
            omega
  | ints t vs => simp only at h; split at h <;> cases h
  | floats t vs => simp only at h; split at h <;> cases h
  | bools vs => simp only at h; split at h <;> cases h
  | texts vs => simp only at h; split at h <;> cases h

/-- **C95 (repeated bits).** … and if a table with a bit column that has the integer SCALING_FACTOR `n` (and no OFFSET) can be read,
then it has a column of lists that hold all fields of the bit column `n` times over. -/
theorem C95_repeated (ids : Ids) (src : Source) (b : Table.Block) (start : Nat) (first first' : Col)
    (rest rest' : List Format.Spec.Entry) (hdefs : b.defs = (Entry.col first :: rest).map Entry.toDef)
    (hread : List.Forall₂ (EntryReadAs ids) (.col first :: rest) (.col first' :: rest'))
    (h : Laid { b with defs := (Entry.col first' :: rest').map Entry.toDef } first' rest')
    (s : Slot) (hs : s ∈ slots (b.rowPrefix.getD 0) (.col first' :: rest')) (defs : List BitDef) (bt : Option Str)
    (fields : List (Nat × Nat)) (hb : s.attrs.bits = some ⟨defs, bt,
      some (fields.map (fun f => some (f.1 : Int)), fields.map (fun f => some (f.2 : Int)))⟩) (n : Nat)
    (hn : 0 < n) (hrep : Rep double n) (hsc : s.attrs.scale = some (.int n)) (hof : s.attrs.offset = none)
    (out : List (Str × BColumn)) (hout : readBitTable ids src b start = .ok (some out)) :
    ∃ name vs, (name, BColumn.bits vs) ∈ out ∧
      ∀ v ∈ vs, ∃ w, w.length = fields.length ∧ v = (List.replicate n w).flatten := by
  obtain ⟨L, recs, _, _, h3⟩ := read_ok ids src b start _ first' rest' (by rw [hdefs, addBits_entries ids _ _ hread]) h out hout
  obtain ⟨c, col, bc, str, _, h4, h5, h6, h7, sc, of, name, o, h8, hmem, h9, h10⟩ := h3 s hs
  obtain ⟨vs, rfl, hvs⟩ := expandBits_lengths s.attrs defs bt _ _ hb (by rw [List.length_map, List.length_map]) col bc h7
  have hof' : of = none := by
    rcases h10 with h | h
    · rw [h, hof]
    · rw [h, hof]; rfl
  have hfl : src.R.fl (n : ℚ) = n := src.R.exact _ hrep
  have hn0 : ¬ ((n : ℚ) = 0) := by
    intro h0
    have : n = 0 := by exact_mod_cast h0
    omega
  rcases h9 with h | h
  · have hi : ¬ ((n : Int) = 0) := by omega
    unfold scaleB at h8
    simp only [h, hsc, hof', if_neg hi] at h8
    injection h8 with h8
    rw [← h8] at hmem
    refine ⟨name, _, hmem, ?_⟩
    intro v hv
    obtain ⟨w, hw, rfl⟩ := List.mem_map.1 hv
    refine ⟨w, by rw [hvs w hw, List.length_map], ?_⟩
    unfold repeatList
    rw [Int.toNat_natCast]
  · have : sc = some (.float (n : ℚ)) := by
      rw [h, hsc]
      show some (Num.float (src.R.fl (Num.val (.int n)))) = _
      rw [show Num.val (.int (n : Int)) = (n : ℚ) from by simp [Num.val], hfl]
    unfold scaleB at h8
    simp only [this, if_neg hn0] at h8
    cases h8

end Verif.BitTable
