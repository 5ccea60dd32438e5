/-
C62: binary tables end to end.
-/
import Verif.Lemmas.TableCells
import Verif.Lemmas.TableNames
import Verif.Props.Scaling

namespace Verif.Table
open Verif.Py Verif.Format Verif.Format.Spec Verif.Datatypes Verif.Datatypes.Spec Verif.Bits Verif.NumPy Verif.Scaling
  Verif.Float Verif.Table.Spec

/-! ### the places of the values -/

/-- the value a row of the format definition stands for -/
def slotOf (r : Row) : Slot := ⟨r.fld.name, r.fld.startByte, r.sb, width r.fld, r.fld.bytes, r.fld.attrs⟩

theorem fin_slots (T : Info) (p : Int) (es : List Format.Spec.Entry) :
    ((es.flatMap (runsOf T p)).flatMap Run.fin).map slotOf = slots p es := by
  have hc : ∀ (info : Info) (base : Int) (c : Col), (Run.fin (info, base, c)).map slotOf = slotsOf base c := by
    intro info base c
    simp [slotsOf, Run.fin, fldOf, width, Col.size, slotOf]
  rw [List.flatMap_assoc, List.map_flatMap]
  unfold slots
  congr 1
  funext e
  cases e with
  | col c => simp [runsOf, hc T]
  | cont n s b r cs =>
    simp only [runsOf, List.flatMap_assoc, List.flatMap_map, List.map_flatMap]
    congr 1
    funext i
    congr 1
    funext c
    exact hc _ _ _

theorem flatMap_replicate {α β : Type} (l : List α) (f : α → Nat) (g : α → β) (k : Nat) :
    (List.replicate k (l.flatMap (fun a => List.replicate (f a) (g a)))).flatten =
    (List.range k).flatMap (fun _ => l.flatMap (fun a => List.replicate (f a) (g a))) := by
  induction k with
  | zero => rfl
  | succ k ih =>
    rw [List.replicate_succ, List.flatten_cons, ih, List.range_succ_eq_map, List.flatMap_cons, List.flatMap_map]

/-- names and START_BYTEs do not change while offsets are computed -/
theorem init_ids (T : Info) (p : Int) (es : List Format.Spec.Entry) :
    (es.flatMap (init T p)).map (fun r => (r.fld.name, r.fld.startByte)) =
    ((es.flatMap (runsOf T p)).flatMap Run.fin).map (fun r => (r.fld.name, r.fld.startByte)) := by
  have hf : ∀ (info : Info) (base : Int) (c : Col), (Run.fin (info, base, c)).map (fun r => (r.fld.name, r.fld.startByte)) =
      List.replicate (copies c.items) (c.name, c.start) := by
    intro info base c
    simp [Run.fin, fldOf, Function.comp_def]
  have hi : ∀ (info : Info) (base : Int) (c : Col), (colRows info base c).map (fun r => (r.fld.name, r.fld.startByte)) =
      List.replicate (copies c.items) (c.name, c.start) := by
    intro info base c
    simp [colRows, fldOf]
  rw [List.flatMap_assoc, List.map_flatMap, List.map_flatMap]
  congr 1
  funext e
  cases e with
  | col c => simp only [init, runsOf, List.flatMap_cons, List.flatMap_nil, List.append_nil, hf, hi]
  | cont n s b r cs =>
    simp only [init, runsOf, List.flatMap_assoc, List.flatMap_map, List.map_flatMap, hf]
    rw [List.map_flatten, List.map_replicate, List.map_flatMap]
    simp only [hi]
    exact flatMap_replicate cs (fun c => copies c.items) (fun c => (c.name, c.start)) (copies r)

theorem reindexNames_length (names starts : List Str) : (reindexNames names starts).length = names.length := by
  simp [reindexNames]

/-- the rows of a binary table, with their final names, before unused bytes at the end are looked at -/
theorem rows_placed (b : Block) (first : Col) (rest : List Format.Spec.Entry) (h : Laid b first rest) :
    ∃ rows, preRows (structureOf b) b.rowPrefix = .ok rows ∧
      rows.map (·.fld.name) = columnNames (b.rowPrefix.getD 0) (.col first :: rest) ∧
      rows.map Row.erase = (((Entry.col first :: rest).flatMap (runsOf ⟨b.tableName, 1, b.bytes⟩ (b.rowPrefix.getD 0))).flatMap
        Run.fin).map Row.erase := by
  have hpre := preRows_regular b.tableName b.bytes first rest h.regular b.rowPrefix
  obtain ⟨⟨hf, hok⟩, hnames, hadj, hsort⟩ := h.regular
  have hflat : ∀ d ∈ (Entry.col first :: rest).map Entry.toDef, Flat d := by
    intro d hd
    obtain ⟨e, he, rfl⟩ := List.mem_map.1 hd
    cases e with
    | col c => trivial
    | cont n s b r cs =>
      intro c hc
      obtain ⟨c', _, rfl⟩ := List.mem_map.1 hc
      exact Or.inl ⟨_, _, _, _, _, _, _, rfl⟩
  rw [← h.defs] at hpre
  have hall : ∀ e ∈ Entry.col first :: rest, e.Ok := by
    intro e he
    rcases List.mem_cons.1 he with rfl | h
    · exact hf
    · exact hok e h
  have hinit : initialRows (readFormatBlock b.tableName none b.bytes b.defs) b.rowPrefix =
      (Entry.col first :: rest).flatMap (init ⟨b.tableName, 1, b.bytes⟩ (b.rowPrefix.getD 0)) := by
    rw [h.defs, C26_flat_tables _ _ _ _ hflat]
    exact init_fields _ _ _
  unfold structureOf
  simp only
  generalize hF : readFormatBlock b.tableName none b.bytes b.defs = fields at *
  generalize hE : Entry.col first :: rest = es at *
  -- names and starts
  have hids : fields.map (fun f => (f.name, f.startByte)) = (slots (b.rowPrefix.getD 0) es).map (fun s => (s.name, s.start)) := by
    have h1 := init_ids ⟨b.tableName, 1, b.bytes⟩ (b.rowPrefix.getD 0) es
    rw [← hinit] at h1
    rw [← fin_slots ⟨b.tableName, 1, b.bytes⟩, List.map_map]
    unfold initialRows at h1
    rw [List.map_map] at h1
    exact h1
  have hn : fields.map (·.name) = (slots (b.rowPrefix.getD 0) es).map (·.name) := by
    have := congrArg (List.map Prod.fst) hids
    rwa [List.map_map, List.map_map] at this
  have hs : fields.map (fun f => intStr f.startByte) = (slots (b.rowPrefix.getD 0) es).map (fun s => intStr s.start) := by
    have := congrArg (List.map (fun q : Str × Int => intStr q.2)) hids
    rwa [List.map_map, List.map_map] at this
  rw [hn, hs]
  have hcn : reindexNames ((slots (b.rowPrefix.getD 0) es).map (·.name)) ((slots (b.rowPrefix.getD 0) es).map (fun s => intStr s.start)) =
      columnNames (b.rowPrefix.getD 0) es := rfl
  rw [hcn]
  have hlen : (columnNames (b.rowPrefix.getD 0) es).length = fields.length := by
    rw [columnNames, reindexNames_length, ← hn, List.length_map]
  have hzn : ∀ (fs : List Fld) (ns : List Str), ns.length = fs.length →
      (List.zipWith (fun (f : Fld) n => { f with name := n }) fs ns).map (·.name) = ns ∧
      (List.zipWith (fun (f : Fld) n => { f with name := n }) fs ns).map Fld.erase = fs.map Fld.erase := by
    intro fs
    induction fs with
    | nil => intro ns hl; simp at hl; subst hl; exact ⟨rfl, rfl⟩
    | cons f fs ih =>
      intro ns hl
      cases ns with
      | nil => simp at hl
      | cons n ns =>
        obtain ⟨h1, h2⟩ := ih ns (by simpa using hl)
        rw [List.zipWith_cons_cons, List.map_cons, List.map_cons, List.map_cons, h1, h2]
        exact ⟨rfl, rfl⟩
  obtain ⟨hz1, hz2⟩ := hzn fields _ hlen
  have hplain : Plain fields := by
    intro f hfm
    have hm : (⟨f, f.startByte - 1 + b.rowPrefix.getD 0⟩ : Row) ∈ initialRows fields b.rowPrefix :=
      List.mem_map.2 ⟨f, hfm, rfl⟩
    rw [hinit] at hm
    obtain ⟨e, he, hm⟩ := List.mem_flatMap.1 hm
    refine ⟨mid_name _ _ e (hall e he) _ hm, ?_⟩
    intro bn hbn
    have hbl := init_block _ _ e _ hm
    simp only at hbl
    rw [hbn] at hbl
    cases e with
    | col c =>
      simp only [blockOf] at hbl
      have := h.table bn hbl.symm
      rw [← contains_iff] at this
      simpa using this
    | cont n s bb r cs =>
      simp only [blockOf, Option.some.injEq] at hbl
      rw [hbl]
      exact (hall _ he).2.2.2
  have hplain' : ∀ f ∈ List.zipWith (fun (f : Fld) n => { f with name := n }) fields (columnNames (b.rowPrefix.getD 0) es),
      f.name ≠ c!"PLACEHOLDER_0" := by
    intro f hfm he
    have : f.name ∈ columnNames (b.rowPrefix.getD 0) es := by
      rw [← hz1]; exact List.mem_map.2 ⟨f, hfm, rfl⟩
    have h2 := h.plain
    rw [hE] at h2
    exact h2 _ this (by rw [he]; exact ⟨[], c!"_0", rfl⟩)
  obtain ⟨rows', h1, h2, h3⟩ := preRows_rename fields _ b.rowPrefix hplain hplain' hz2 _ hpre
  exact ⟨rows', h1, by rw [h3, hz1], h2⟩

/-! ### dtypes and record length -/

/-- the dtype of a type name and width -/
def dtOf (t : Str) (n : Nat) : Dtype :=
  match sampleTypes t n true with
  | .ok s => (npDtype s).getD ⟨none, .void, 0⟩
  | .error _ => ⟨none, .void, 0⟩

/-- a row with its dtype -/
def tcol (r : Row) : TCol := ⟨r.fld, r.sb, dtOf r.fld.attrs.dataType (width r.fld)⟩

theorem dtOf_means {t : Str} {n : Nat} {d : Dtype} (h : Means (underscored t) n d) : dtOf t n = d ∧ d.size = n := by
  obtain ⟨s, h1, h2, h3⟩ := C10_types_mean_what_they_say t n d h
  unfold dtOf
  rw [h1]
  simp only [h2, Option.getD_some]
  exact ⟨trivial, h3⟩

theorem typed_means {r : Row} {d : Dtype} (h : Means (underscored r.fld.attrs.dataType) (width r.fld) d) :
    typed r = .ok (tcol r) := by
  obtain ⟨s, h1, h2, h3⟩ := C10_types_mean_what_they_say _ _ d h
  unfold typed tcol
  rw [(dtOf_means h).1, h1]
  simp only [h2]

theorem itemsize_rows (rows : List Row) (h : ∀ r ∈ rows, 0 ≤ r.sb ∧ (tcol r).dt.size = width r.fld) :
    (itemsize (rows.map tcol) : Int) = recordLength rows := by
  induction rows with
  | nil => rfl
  | cons r rs ih =>
    have ih := ih (fun r' h' => h r' (List.mem_cons_of_mem _ h'))
    have hr := h r (by simp)
    simp only [itemsize, recordLength, List.map_cons, List.foldr_cons] at ih ⊢
    rw [← ih, hr.2]
    have : (tcol r).sb = r.sb := rfl
    rw [this]
    push_cast
    rw [Int.toNat_of_nonneg hr.1]

/-- the filler at the end of a row -/
def Filler (r : Row) : Prop := r.fld.name = c!"PLACEHOLDER_0" ∧ r.fld.attrs = { dataType := voidType } ∧ 0 ≤ r.sb ∧
  r.fld.itemBytes = none

theorem padRow_length (rows : List Row) (r : Row) (hl : rows.getLast? = some r) (hi : r.fld.itemBytes = none) (n p : Int)
    (rs : Option Int) (hs : 0 ≤ rs.getD 0) (hp : 0 ≤ p) (hall : ∀ x ∈ rows, 0 ≤ x.sb ∧ x.sb + width x.fld ≤ p + n)
    (hcase : p = 0 ∨ (rs.getD 0 = 0 ∧ r.sb + r.fld.bytes = p + n)) :
    ∃ tail, padRow rows (some n) rs = .ok (rows ++ tail) ∧ recordLength (rows ++ tail) = p + n + rs.getD 0 ∧
      (tail = [] ∨ ∃ f, tail = [f] ∧ Filler f) := by
  have hr := hall r (List.mem_of_getLast? hl)
  have hw : width r.fld = r.fld.bytes := by rw [width, hi]; rfl
  rw [hw] at hr
  rw [padRow_eq rows r.fld r.sb hl n rs _ rfl]
  by_cases hpad : 0 < n - (r.sb + r.fld.bytes) + rs.getD 0
  · rw [if_pos hpad]
    have hp0 : p = 0 := by
      rcases hcase with h | h
      · exact h
      · omega
    refine ⟨_, rfl, ?_, Or.inr ⟨_, rfl, rfl, rfl, ?_, rfl⟩⟩
    · refine Int.le_antisymm (recordLength_le _ _ (by omega) ?_) ?_
      · intro x hx
        rcases List.mem_append.1 hx with h | h
        · have := hall x h; omega
        · rw [List.mem_singleton] at h
          subst h
          simp only [width, Option.getD_none]
          omega
      · have := le_recordLength _ _ (List.mem_append_right rows (List.mem_singleton.2 rfl) :
          (⟨{ name := c!"PLACEHOLDER_0", startByte := r.sb + r.fld.bytes, bytes := (n - (r.sb + r.fld.bytes) + rs.getD 0).toNat, placeholder := true, attrs := { dataType := voidType } }, r.sb + r.fld.bytes⟩ : Row) ∈ _)
        simp only [width, Option.getD_none] at this
        omega
    · simp only; omega
  · rw [if_neg hpad]
    refine ⟨[], by rw [List.append_nil], ?_, Or.inl rfl⟩
    rw [List.append_nil]
    refine Int.le_antisymm (recordLength_le _ _ (by omega) ?_) ?_
    · intro x hx; have := hall x hx; omega
    · have := le_recordLength _ _ (List.mem_of_getLast? hl)
      rw [hw] at this
      omega

/-- what `compute_offsets` gives for a table whose values can be placed -/
theorem laid_rows (b : Block) (first : Col) (rest : List Format.Spec.Entry) (h : Laid b first rest) :
    ∃ rows tail, computeOffsets (structureOf b) b.rowPrefix b.rowBytes b.rowSuffix = .ok (rows ++ tail) ∧
      rows.map (·.fld.name) = columnNames (b.rowPrefix.getD 0) (.col first :: rest) ∧
      rows.map (fun r => (r.sb, width r.fld, r.fld.attrs)) =
        (slots (b.rowPrefix.getD 0) (.col first :: rest)).map (fun s => (s.off, s.size, s.attrs)) ∧
      rows.map Row.erase = (((Entry.col first :: rest).flatMap (runsOf ⟨b.tableName, 1, b.bytes⟩ (b.rowPrefix.getD 0))).flatMap
        Run.fin).map Row.erase ∧
      padRow rows b.rowBytes b.rowSuffix = .ok (rows ++ tail) ∧
      (tail = [] ∨ ∃ f, tail = [f] ∧ Filler f) := by
  obtain ⟨rows, hpre, hnames, herase⟩ := rows_placed b first rest h
  have hslots : rows.map (fun r => (r.sb, width r.fld, r.fld.attrs)) =
        (slots (b.rowPrefix.getD 0) (.col first :: rest)).map (fun s => (s.off, s.size, s.attrs)) := by
    have := congrArg (List.map (fun r : Row => (r.sb, width r.fld, r.fld.attrs))) herase
    rw [List.map_map, List.map_map] at this
    rw [← fin_slots ⟨b.tableName, 1, b.bytes⟩, List.map_map]
    exact this
  have hin := h.offsets
  -- every row is a slot
  have hmem : ∀ r ∈ rows, ∃ s ∈ slots (b.rowPrefix.getD 0) (.col first :: rest), r.sb = s.off ∧ width r.fld = s.size ∧
      r.fld.attrs = s.attrs := by
    intro r hr
    have : (r.sb, width r.fld, r.fld.attrs) ∈ rows.map (fun r => (r.sb, width r.fld, r.fld.attrs)) :=
      List.mem_map.2 ⟨r, hr, rfl⟩
    rw [hslots] at this
    obtain ⟨s, hs, he⟩ := List.mem_map.1 this
    simp only [Prod.mk.injEq] at he
    exact ⟨s, hs, he.1.symm, he.2.1.symm, he.2.2.symm⟩
  have hne : rows ≠ [] := by
    rintro rfl
    have := congrArg List.length herase
    have h2 := List.length_pos_iff.2 (fin_ne ⟨b.tableName, 1, b.bytes⟩ (b.rowPrefix.getD 0) first rest)
    rw [List.length_map, List.length_map] at this
    rw [← this] at h2
    simp at h2
  obtain ⟨tail, hpad, htail⟩ : ∃ tail, padRow rows b.rowBytes b.rowSuffix = .ok (rows ++ tail) ∧
      (tail = [] ∨ ∃ f, tail = [f] ∧ Filler f) := by
    have hlast := List.getLast?_eq_getLast_of_ne_nil hne
    obtain ⟨s, hs, e1, _⟩ := hmem _ (List.getLast_mem hne)
    have h0 := hin s hs
    unfold padRow
    rw [hlast]
    simp only
    generalize hg : rows.getLast hne = g at *
    generalize ((match b.rowBytes with | some n => n - (g.sb + (g.fld.bytes : Int)) | none => 0) + b.rowSuffix.getD 0) = pad
    by_cases hpad : 0 < pad
    · rw [if_pos hpad]
      refine ⟨_, rfl, Or.inr ⟨_, rfl, rfl, rfl, ?_, rfl⟩⟩
      show 0 ≤ g.sb + (g.fld.bytes : Int)
      omega
    · rw [if_neg hpad]
      exact ⟨[], by rw [List.append_nil], Or.inl rfl⟩
  exact ⟨rows, tail, by rw [computeOffsets_pre, hpre]; exact hpad, hnames, hslots, herase, hpad, htail⟩

/-- what `parse_table_structure` gives for a table whose values can be placed -/
theorem parse_placed (b : Block) (first : Col) (rest : List Format.Spec.Entry) (h : Placed b first rest) :
    ∃ rows tail, parseStructure b = .ok (rows ++ tail, some ((rows ++ tail).map tcol, (recordLength (rows ++ tail)).toNat)) ∧
      rows.map (·.fld.name) = columnNames (b.rowPrefix.getD 0) (.col first :: rest) ∧
      rows.map (fun r => (r.sb, width r.fld, r.fld.attrs)) =
        (slots (b.rowPrefix.getD 0) (.col first :: rest)).map (fun s => (s.off, s.size, s.attrs)) ∧
      rows.map Row.erase = (((Entry.col first :: rest).flatMap (runsOf ⟨b.tableName, 1, b.bytes⟩ (b.rowPrefix.getD 0))).flatMap
        Run.fin).map Row.erase ∧
      padRow rows b.rowBytes b.rowSuffix = .ok (rows ++ tail) ∧
      (tail = [] ∨ ∃ f, tail = [f] ∧ Filler f) := by
  obtain ⟨rows, tail, hcomp, hnames, hslots, herase, hpad, htail⟩ := laid_rows b first rest h.toLaid
  have hin := h.offsets
  have hmem : ∀ r ∈ rows, ∃ s ∈ slots (b.rowPrefix.getD 0) (.col first :: rest), r.sb = s.off ∧ width r.fld = s.size ∧
      r.fld.attrs = s.attrs := by
    intro r hr
    have : (r.sb, width r.fld, r.fld.attrs) ∈ rows.map (fun r => (r.sb, width r.fld, r.fld.attrs)) :=
      List.mem_map.2 ⟨r, hr, rfl⟩
    rw [hslots] at this
    obtain ⟨s, hs, he⟩ := List.mem_map.1 this
    simp only [Prod.mk.injEq] at he
    exact ⟨s, hs, he.1.symm, he.2.1.symm, he.2.2.symm⟩
  refine ⟨rows, tail, ?_, hnames, hslots, herase, hpad, htail⟩
  have hall : ∀ x ∈ rows ++ tail, 0 ≤ x.sb ∧ contains x.fld.attrs.dataType c!"ASCII" = false ∧
      ∃ d, Means (underscored x.fld.attrs.dataType) (width x.fld) d := by
    intro x hx
    rcases List.mem_append.1 hx with h1 | h1
    · obtain ⟨s, hs, e1, e2, e3⟩ := hmem x h1
      rw [e1, e2, e3]
      have ht := h.types s hs
      refine ⟨hin s hs, ?_, ht.2.2⟩
      have := ht.1
      rw [← contains_iff] at this
      simpa using this
    · rcases htail with rfl | ⟨f, rfl, hf⟩
      · cases h1
      · rw [List.mem_singleton] at h1
        subst h1
        rw [hf.2.1]
        exact ⟨hf.2.2.1, by decide, _, .raw (by decide)⟩
  unfold parseStructure
  rw [hcomp]
  simp only
  have hasc : probablyAscii b (rows ++ tail) = false := by
    unfold probablyAscii
    have h1 : (rows ++ tail).any (fun r => contains r.fld.attrs.dataType c!"ASCII") = false := by
      rw [List.any_eq_false]
      intro x hx
      rw [(hall x hx).2.1]; simp
    have h2 := h.binary
    rw [← contains_iff, ← contains_iff] at h2
    simp [h1, h2.1, h2.2.1, h2.2.2]
  rw [hasc]
  simp only [Bool.false_eq_true, if_false]
  rw [mapM_ok typed tcol (rows ++ tail) (fun x hx => by obtain ⟨d, hd⟩ := (hall x hx).2.2; exact typed_means hd)]
  simp only
  have hsize : (itemsize ((rows ++ tail).map tcol) : Int) = recordLength (rows ++ tail) := by
    rw [itemsize_rows]
    intro x hx
    obtain ⟨d, hd⟩ := (hall x hx).2.2
    refine ⟨(hall x hx).1, ?_⟩
    rw [tcol, (dtOf_means hd).1, (dtOf_means hd).2]
  have hstruct : structDtype ((rows ++ tail).map tcol) = .ok (recordLength (rows ++ tail)).toNat := by
    unfold structDtype
    rw [if_pos]
    · congr 1; omega
    · constructor
      · rw [List.map_map]
        have : ((fun x : TCol => x.fld.name) ∘ tcol) = fun r : Row => r.fld.name := rfl
        rw [this, List.map_append, hnames]
        rcases htail with rfl | ⟨f, rfl, hf⟩
        · simpa using h.names
        · rw [List.map_singleton, hf.1, List.nodup_append]
          refine ⟨h.names, by simp, ?_⟩
          intro a ha c hc
          rw [List.mem_singleton] at hc
          subst hc
          rintro rfl
          exact h.plain _ ha ⟨[], c!"_0", rfl⟩
      · intro c hc
        obtain ⟨x, hx, rfl⟩ := List.mem_map.1 hc
        exact (hall x hx).1
  rw [hstruct]

/-- the size of a record, as pdr has it -/
def recordSize (b : Block) : Option Nat :=
  match parseStructure b with
  | .ok (_, some (_, L)) => some L
  | _ => none

/-- the last row of the format definition is the last column, if that has no ITEMS -/
theorem last_row (b : Block) (first : Col) (rest before : List Format.Spec.Entry) (last : Col) (h : Laid b first rest)
    (rows : List Row) (herase : rows.map Row.erase =
      (((Entry.col first :: rest).flatMap (runsOf ⟨b.tableName, 1, b.bytes⟩ (b.rowPrefix.getD 0))).flatMap Run.fin).map Row.erase)
    (hsplit : Entry.col first :: rest = before ++ [Entry.col last]) (hitem : last.itemBytes = none) :
    ∃ r, rows.getLast? = some r ∧ r.fld.itemBytes = none ∧
      r.sb + r.fld.bytes = b.rowPrefix.getD 0 + (last.start - 1 + last.bytes) := by
  have hok : last.Ok := by
    have hall := h.regular.ok
    have : Entry.col last ∈ Entry.col first :: rest := by rw [hsplit]; simp
    rcases List.mem_cons.1 this with he | he
    · cases he; exact hall.1
    · exact hall.2 _ he
  have hcop : last.items = none := by
    cases hx : last.items with
    | none => rfl
    | some k =>
      have := hok.2.1 (by rw [hx]; rfl)
      rw [hitem] at this; cases this
  have hlast := congrArg List.getLast? herase
  rw [hsplit, List.flatMap_append, List.flatMap_append, List.map_append] at hlast
  have : (([Entry.col last].flatMap (runsOf ⟨b.tableName, 1, b.bytes⟩ (b.rowPrefix.getD 0))).flatMap Run.fin) =
      [⟨fldOf ⟨b.tableName, 1, b.bytes⟩ last, b.rowPrefix.getD 0 + (last.start - 1)⟩] := by
    simp [runsOf, Run.fin, hcop, copies]
  rw [this, List.map_singleton, List.getLast?_append, List.getLast?_singleton, List.getLast?_map] at hlast
  cases hg : rows.getLast? with
  | none => rw [hg] at hlast; simp at hlast
  | some r =>
    rw [hg] at hlast
    simp only [Option.map_some, Option.or_some, Option.some.injEq] at hlast
    simp at hlast
    refine ⟨r, rfl, ?_, ?_⟩
    · have := congrArg (fun r : Row => r.fld.itemBytes) hlast
      simp only [Row.erase, Fld.erase, fldOf] at this
      rw [this, hitem]
    · have e1 := congrArg (fun r : Row => r.sb) hlast
      have e2 := congrArg (fun r : Row => r.fld.bytes) hlast
      simp only [Row.erase, Fld.erase, fldOf] at e1 e2
      rw [e1, e2]; ring

theorem recordSize_binary (b : Block) (first : Col) (rest : List Format.Spec.Entry) (L : Nat) (h : Binary b first rest L) :
    recordSize b = some L := by
  obtain ⟨rows, tail, hparse, hnames, hslots, herase, hpad, htail⟩ := parse_placed b first rest h.toPlaced
  obtain ⟨hL, n, hrb, hp, hsuf, hLn, hin, before, last, hsplit, hitem, hcase⟩ := h.size
  have hmem : ∀ r ∈ rows, 0 ≤ r.sb ∧ r.sb + width r.fld ≤ b.rowPrefix.getD 0 + n := by
    intro r hr
    have : (r.sb, width r.fld, r.fld.attrs) ∈ rows.map (fun r => (r.sb, width r.fld, r.fld.attrs)) :=
      List.mem_map.2 ⟨r, hr, rfl⟩
    rw [hslots] at this
    obtain ⟨s, hs, he⟩ := List.mem_map.1 this
    simp only [Prod.mk.injEq] at he
    rw [← he.1, ← he.2.1]
    exact ⟨h.offsets s hs, hin s hs⟩
  obtain ⟨r, hr, hrl⟩ := last_row b first rest before last h.toLaid rows herase hsplit hitem
  obtain ⟨tail', hpad', hlen, _⟩ := padRow_length rows r hr hrl.1 n (b.rowPrefix.getD 0) b.rowSuffix hsuf hp hmem
    (by
      rcases hcase with h1 | ⟨h1, h2⟩
      · exact Or.inl h1
      · exact Or.inr ⟨h1, by rw [hrl.2, h2]⟩)
  rw [hrb, hpad'] at hpad
  have : tail' = tail := List.append_cancel_left (Except.ok.inj hpad)
  subst this
  rw [recordSize, hparse]
  simp only
  congr 1
  omega

/-! ### the columns -/

theorem columnOf_ok (src : Source) (recs : List Bytes) (c : TCol) (h : Native c.fld.attrs.dataType) :
    ∃ col, columnOf src recs c = .ok col := by
  have hn1 : ¬ (startsWith c.fld.attrs.dataType c!"IBM" && contains c.fld.attrs.dataType c!"REAL") = true := by
    rw [Bool.and_eq_true, contains_iff]
    intro hh
    exact h ⟨Or.inl (List.isPrefixOf_iff_prefix.1 hh.1), hh.2⟩
  have hn2 : ¬ (startsWith c.fld.attrs.dataType c!"VAX" && contains c.fld.attrs.dataType c!"REAL") = true := by
    rw [Bool.and_eq_true, contains_iff]
    intro hh
    exact h ⟨Or.inr (List.isPrefixOf_iff_prefix.1 hh.1), hh.2⟩
  unfold columnOf
  simp only
  rw [if_neg hn1, if_neg hn2]
  exact ⟨_, rfl⟩

/-- the kind of column that goes with a dtype of numbers -/
def Fits (d : Dtype) (c : Column) : Prop :=
  match d.kind with
  | .int => ∃ vs, c = .ints ⟨true, 8 * d.size⟩ vs
  | .uint => ∃ vs, c = .ints ⟨false, 8 * d.size⟩ vs
  | .float => ∃ vs, c = .floats (if d.size = 4 then .f32 else .f64) vs
  | _ => True

theorem columnOf_fits (src : Source) (recs : List Bytes) (c : TCol) (hnat : Native c.fld.attrs.dataType) (h : c.fld.attrs.dataType ≠ c!"BOOLEAN") (col : Column)
    (hc : columnOf src recs c = .ok col) : Fits c.dt col := by
  unfold columnOf at hc
  simp only at hc
  split at hc
  · rename_i hh
    rw [Bool.and_eq_true, contains_iff] at hh
    exact absurd ⟨Or.inl (List.isPrefixOf_iff_prefix.1 hh.1), hh.2⟩ hnat
  · split at hc
    · rename_i hh
      rw [Bool.and_eq_true, contains_iff] at hh
      exact absurd ⟨Or.inr (List.isPrefixOf_iff_prefix.1 hh.1), hh.2⟩ hnat
    · cases hc
      generalize recs.map (fun r => (r.drop c.sb.toNat).take c.dt.size) = cells
      obtain ⟨o, k, n⟩ := c.dt
      cases k <;> simp only [Fits, decodeAll] <;> try trivial
      · split <;> exact ⟨_, rfl⟩
      · split <;> exact ⟨_, rfl⟩
      · by_cases h4 : n = 4
        · simp only [h4, if_true]; split <;> exact ⟨_, rfl⟩
        · simp only [h4, if_false]; split <;> exact ⟨_, rfl⟩

/-- the values of a column -/
def colOf (src : Source) (recs : List Bytes) (c : TCol) : Column :=
  match columnOf src recs c with
  | .ok col => col
  | .error _ => .bytes []

theorem forall_range {α β : Type} {P : α → β → Prop} (f : Nat → α) (g : Nat → β) (n : Nat) (h : ∀ i < n, P (f i) (g i)) :
    List.Forall₂ P ((List.range n).map f) ((List.range n).map g) := by
  rw [List.forall₂_map_left_iff, List.forall₂_map_right_iff, List.forall₂_same]
  intro i hi
  exact h i (List.mem_range.1 hi)

theorem unify_append (R : Rounding double) (ns ms : List (Option Num)) :
    ∃ ns' ms', unify R (ns ++ ms) = ns' ++ ms' ∧ ms'.length = ms.length ∧
      (ns' = ns ∨ ns' = ns.map (Option.map (fun n => Num.float (R.fl n.val)))) ∧
      ((∃ n ∈ ns, ∀ i, n ≠ some (.int i)) → ns' = ns.map (Option.map (fun n => Num.float (R.fl n.val)))) := by
  unfold unify
  split
  · rename_i h
    refine ⟨ns, ms, rfl, rfl, Or.inl rfl, ?_⟩
    rintro ⟨n, hn, hi⟩
    have := List.all_eq_true.1 h n (List.mem_append_left _ hn)
    split at this
    · exact absurd rfl (hi _)
    · cases this
  · exact ⟨_, _, List.map_append, by simp, Or.inr rfl, fun _ => rfl⟩

/-- the last step of reading a table: columns are scaled -/
def finish (src : Source) (q : Str × Column × Option Num × Option Num) : Except PyErr (Str × Column) :=
  (scaleCol src.R src.R' q.2.1 q.2.2.1 q.2.2.2).map (fun c => (q.1, c))

/-- A binary table is read up to scaling. -/
theorem read_unscaled (src : Source) (hv : ReadsVax src.vax32) (b : Block) (start R L : Nat) (first : Col) (rest : List Format.Spec.Entry)
    (h : Placed b first rest) (hsize : recordSize b = some L) (hL : 0 < L)
    (hR : b.rows.getD 1 = R) (hfile : start + R * L ≤ src.file.length) (val : Nat → Nat → Value)
    (henc : ∀ (k : Nat) s, (slots (b.rowPrefix.getD 0) (.col first :: rest))[k]? = some s → ∀ r < R,
      Encodes src.cp500 s.attrs.dataType s.size (bytesAt src.file (start + r * L + s.off.toNat) s.size) (val r k)) :
    ∃ (cols : List Column) (scales offsets : List (Option Num)),
      cols.length = (slots (b.rowPrefix.getD 0) (.col first :: rest)).length ∧
      (∀ (k : Nat) c, cols[k]? = some c → Shows c ((List.range R).map (fun r => val r k))) ∧
      (∀ (k : Nat) c s d, cols[k]? = some c → (slots (b.rowPrefix.getD 0) (.col first :: rest))[k]? = some s →
        s.attrs.dataType ≠ c!"BOOLEAN" → Native s.attrs.dataType → Means (underscored s.attrs.dataType) s.size d → Fits d c) ∧
      (scales = (slots (b.rowPrefix.getD 0) (.col first :: rest)).map (·.attrs.scale) ∨
        scales = ((slots (b.rowPrefix.getD 0) (.col first :: rest)).map (·.attrs.scale)).map
          (Option.map (fun n => Num.float (src.R.fl n.val)))) ∧
      (offsets = (slots (b.rowPrefix.getD 0) (.col first :: rest)).map (·.attrs.offset) ∨
        offsets = ((slots (b.rowPrefix.getD 0) (.col first :: rest)).map (·.attrs.offset)).map
          (Option.map (fun n => Num.float (src.R.fl n.val)))) ∧
      ((∃ s ∈ slots (b.rowPrefix.getD 0) (.col first :: rest), ∀ i, s.attrs.scale ≠ some (.int i)) →
        scales = ((slots (b.rowPrefix.getD 0) (.col first :: rest)).map (·.attrs.scale)).map
          (Option.map (fun n => Num.float (src.R.fl n.val)))) ∧
      readTable src b start = (match ((columnNames (b.rowPrefix.getD 0) (.col first :: rest)).zip
          (cols.zip (scales.zip offsets))).mapM (finish src) with
        | .error e => .error e
        | .ok out => .ok (some out)) := by
  obtain ⟨rows, tail, hparse, hnames, hslots, herase, _, htail⟩ := parse_placed b first rest h
  have htotal : rows.map (fun r => r.fld.bytes) = (slots (b.rowPrefix.getD 0) (.col first :: rest)).map (·.total) := by
    have := congrArg (List.map (fun r : Row => r.fld.bytes)) herase
    rw [List.map_map, List.map_map] at this
    rw [← fin_slots ⟨b.tableName, 1, b.bytes⟩, List.map_map]
    exact this
  clear herase
  rw [recordSize, hparse] at hsize
  simp only [Option.some.injEq] at hsize
  have hin : ∀ r ∈ rows, 0 ≤ r.sb ∧ r.sb + width r.fld ≤ L := by
    intro r hr
    have h1 := le_recordLength (rows ++ tail) r (List.mem_append_left _ hr)
    have : (r.sb, width r.fld, r.fld.attrs) ∈ rows.map (fun r => (r.sb, width r.fld, r.fld.attrs)) :=
      List.mem_map.2 ⟨r, hr, rfl⟩
    rw [hslots] at this
    obtain ⟨s, hs, he⟩ := List.mem_map.1 this
    simp only [Prod.mk.injEq] at he
    have h2 := h.offsets s hs
    omega
  rw [hsize] at hparse
  generalize hS : slots (b.rowPrefix.getD 0) (.col first :: rest) = S at *
  have htypes := h.types
  rw [hS] at htypes
  have hcn := h.plain
  generalize columnNames (b.rowPrefix.getD 0) (.col first :: rest) = N at *
  have hlen : rows.length = S.length := by
    have := congrArg List.length hslots
    simpa using this
  have hNlen : N.length = S.length := by
    have := congrArg List.length hnames
    rw [List.length_map] at this
    omega
  generalize hrecs : (List.range R).map (fun r => bytesAt src.file (start + r * L) L) = recs
  have hget : ∀ (k : Nat) r, rows[k]? = some r → ∃ s, S[k]? = some s ∧ r.sb = s.off ∧ width r.fld = s.size ∧ r.fld.attrs = s.attrs ∧
      r.fld.bytes = s.total := by
    intro k r hr
    have := congrArg (fun l : List (Int × Nat × Attrs) => l[k]?) hslots
    have ht := congrArg (fun l : List Nat => l[k]?) htotal
    simp only [List.getElem?_map, hr, Option.map_some] at this ht
    cases hs : S[k]? with
    | none => rw [hs] at this; cases this
    | some s =>
      rw [hs] at this ht
      simp only [Option.map_some, Option.some.injEq, Prod.mk.injEq] at this ht
      exact ⟨s, rfl, this.1, this.2.1, this.2.2, ht⟩
  have hrow : ∀ (k : Nat) r, rows[k]? = some r → ∃ col, columnOf src recs (tcol r) = .ok col ∧
      Shows col ((List.range R).map (fun r => val r k)) := by
    intro k r hk
    obtain ⟨s, hs, e1, e2, e3, e4⟩ := hget k r hk
    have hsm := List.mem_of_getElem? hs
    obtain ⟨_, hcv, d, hd⟩ := htypes s hsm
    have hd' : Means (underscored (tcol r).fld.attrs.dataType) s.size (tcol r).dt := by
      show Means (underscored r.fld.attrs.dataType) s.size (dtOf r.fld.attrs.dataType (width r.fld))
      rw [e2, e3, (dtOf_means hd).1]; exact hd
    have hsz : (tcol r).dt.size = s.size := by
      show (dtOf r.fld.attrs.dataType (width r.fld)).size = s.size
      rw [e2, e3, (dtOf_means hd).1, (dtOf_means hd).2]
    refine columnOf_shows src hv recs (tcol r) s.size ((List.range R).map (fun r => val r k)) ?_ hd' ?_
    · show Native r.fld.attrs.dataType ∨ r.fld.bytes = s.size ∧ recs ≠ []
      rw [e3, e4]
      rcases hcv with h' | ⟨h1, h2⟩
      · exact Or.inl h'
      · refine Or.inr ⟨h1, ?_⟩
        rw [hR] at h2
        rw [← hrecs]
        intro h0
        have := congrArg List.length h0
        simp at this
        omega
    · rw [← hrecs]
      apply forall_range
      intro i hi
      rw [hsz]
      show Encodes src.cp500 r.fld.attrs.dataType s.size _ _
      have hsb : (tcol r).sb = s.off := e1
      have hb := hin r (List.mem_of_getElem? hk)
      rw [e1, e2] at hb
      rw [hsb, e3, bytesAt_within _ _ _ _ _ (by omega)]
      exact henc k s hs i hi
  have hmapM : ((rows ++ tail).map tcol).mapM (columnOf src recs) =
      .ok (((rows ++ tail).map tcol).map (colOf src recs)) := by
    apply mapM_ok
    intro c hc
    obtain ⟨x, hx, rfl⟩ := List.mem_map.1 hc
    have : ∃ col, columnOf src recs (tcol x) = .ok col := by
      rcases List.mem_append.1 hx with h1 | h1
      · obtain ⟨k, hk⟩ := List.mem_iff_getElem?.1 h1
        obtain ⟨col, h2, _⟩ := hrow k x hk
        exact ⟨col, h2⟩
      · rcases htail with rfl | ⟨f, rfl, hf⟩
        · cases h1
        · rw [List.mem_singleton] at h1
          subst h1
          apply columnOf_ok
          show Native x.fld.attrs.dataType
          rw [hf.2.1]
          rintro ⟨h1 | h1, _⟩
          · exact absurd h1 (by decide)
          · exact absurd h1 (by decide)
    obtain ⟨col, hcol⟩ := this
    rw [colOf, hcol]
  obtain ⟨sc, sc', hsc, hsc', hscv, hscm⟩ := unify_append src.R (rows.map (fun r => r.fld.attrs.scale)) (tail.map (fun r => r.fld.attrs.scale))
  obtain ⟨of, of', hof, hof', hofv, -⟩ := unify_append src.R (rows.map (fun r => r.fld.attrs.offset)) (tail.map (fun r => r.fld.attrs.offset))
  have hattr : rows.map (fun r => r.fld.attrs) = S.map (·.attrs) := by
    have := congrArg (List.map (fun q : Int × Nat × Attrs => q.2.2)) hslots
    rwa [List.map_map, List.map_map] at this
  have hsS : rows.map (fun r => r.fld.attrs.scale) = S.map (·.attrs.scale) := by
    have := congrArg (List.map Attrs.scale) hattr
    rwa [List.map_map, List.map_map] at this
  have hoS : rows.map (fun r => r.fld.attrs.offset) = S.map (·.attrs.offset) := by
    have := congrArg (List.map Attrs.offset) hattr
    rwa [List.map_map, List.map_map] at this
  rw [hsS] at hscv hscm
  rw [hoS] at hofv
  have hsl : sc.length = S.length := by rcases hscv with rfl | rfl <;> simp
  have hol : of.length = S.length := by rcases hofv with rfl | rfl <;> simp
  refine ⟨(rows.map tcol).map (colOf src recs), sc, of, by simp [hlen], ?_, ?_, hscv, hofv, fun ⟨s, hs, hi⟩ => hscm ⟨s.attrs.scale, List.mem_map.2 ⟨s, hs, rfl⟩, hi⟩, ?_⟩
  · intro k c hc
    rw [List.map_map, List.getElem?_map] at hc
    cases hk : rows[k]? with
    | none => rw [hk] at hc; cases hc
    | some r =>
      rw [hk] at hc
      simp only [Option.map_some, Option.some.injEq, Function.comp_apply] at hc
      obtain ⟨col, h1, h2⟩ := hrow k r hk
      rw [colOf, h1] at hc
      rw [← hc]
      exact h2
  · intro k c s d hc hs hb hnat hd
    rw [List.map_map, List.getElem?_map] at hc
    cases hk : rows[k]? with
    | none => rw [hk] at hc; cases hc
    | some r =>
      rw [hk] at hc
      simp only [Option.map_some, Option.some.injEq, Function.comp_apply] at hc
      obtain ⟨s', hs', e1, e2, e3, e4⟩ := hget k r hk
      rw [hs] at hs'
      cases hs'
      obtain ⟨col, hcol, _⟩ := hrow k r hk
      have := columnOf_fits src recs (tcol r) (by show Native r.fld.attrs.dataType; rw [e3]; exact hnat) (by show r.fld.attrs.dataType ≠ _; rw [e3]; exact hb) col hcol
      rw [colOf, hcol] at hc
      simp only at hc
      rw [← hc]
      have hdt : (tcol r).dt = d := by
        show dtOf r.fld.attrs.dataType (width r.fld) = d
        rw [e2, e3, (dtOf_means hd).1]
      rw [← hdt]
      exact this
  · unfold readTable
    rw [hparse]
    simp only
    rw [hR, readRecords_eq _ _ _ _ _ hL hfile]
    simp only [hrecs, hmapM]
    have ht1 : ((rows ++ tail).map tcol).map (fun c => c.fld.name) = N ++ tail.map (fun r => r.fld.name) := by
      rw [List.map_map, List.map_append, ← hnames]; rfl
    have ht2 : ((rows ++ tail).map tcol).map (fun c => c.fld.attrs.scale) =
        rows.map (fun r => r.fld.attrs.scale) ++ tail.map (fun r => r.fld.attrs.scale) := by
      rw [List.map_map, List.map_append]; rfl
    have ht3 : ((rows ++ tail).map tcol).map (fun c => c.fld.attrs.offset) =
        rows.map (fun r => r.fld.attrs.offset) ++ tail.map (fun r => r.fld.attrs.offset) := by
      rw [List.map_map, List.map_append]; rfl
    rw [ht1, ht2, ht3, hsc, hof, List.map_append, List.map_append]
    rw [List.zip_append (by omega), List.zip_append (by simp; omega), List.zip_append (by simp; omega), List.filter_append]
    rw [List.filter_eq_self.2 (by
      intro q hq
      have := (List.of_mem_zip hq).1
      have := hcn _ this
      rw [← contains_iff] at this
      simpa using this)]
    rw [List.filter_eq_nil_iff.2 (by
      intro q hq
      have := (List.of_mem_zip hq).1
      rcases htail with rfl | ⟨f, rfl, hf⟩
      · cases this
      · rw [List.map_singleton, List.mem_singleton] at this
        rw [this, hf.1]
        decide), List.append_nil]
    rfl

/-- A table without scaling, read with the records pdr takes it to have. -/
theorem read_plain (src : Source) (hv : ReadsVax src.vax32) (b : Block) (start R L : Nat) (first : Col) (rest : List Format.Spec.Entry)
    (h : Placed b first rest) (hsize : recordSize b = some L) (hL : 0 < L)
    (hR : b.rows.getD 1 = R) (hfile : start + R * L ≤ src.file.length) (val : Nat → Nat → Value)
    (henc : ∀ (k : Nat) s, (slots (b.rowPrefix.getD 0) (.col first :: rest))[k]? = some s →
      s.attrs.scale = none ∧ s.attrs.offset = none ∧ ∀ r < R,
        Encodes src.cp500 s.attrs.dataType s.size (bytesAt src.file (start + r * L + s.off.toNat) s.size) (val r k)) :
    ∃ out, readTable src b start = .ok (some out) ∧
      out.map Prod.fst = columnNames (b.rowPrefix.getD 0) (.col first :: rest) ∧
      ∀ (k : Nat) q, out[k]? = some q → Shows q.2 ((List.range R).map (fun r => val r k)) := by
  obtain ⟨cols, sc, of, hlen, hshow, _, hsc, hof, -, hread⟩ := read_unscaled src hv b start R L first rest h hsize hL hR hfile val
    (fun k s hs => (henc k s hs).2.2)
  have hNlen : (columnNames (b.rowPrefix.getD 0) (.col first :: rest)).length =
      (slots (b.rowPrefix.getD 0) (.col first :: rest)).length := by
    rw [columnNames, reindexNames_length, List.length_map]
  generalize hS : slots (b.rowPrefix.getD 0) (.col first :: rest) = S at *
  generalize columnNames (b.rowPrefix.getD 0) (.col first :: rest) = N at *
  have hnone : ∀ s ∈ S, s.attrs.scale = none ∧ s.attrs.offset = none := by
    intro s hs
    obtain ⟨k, hk⟩ := List.mem_iff_getElem?.1 hs
    exact ⟨(henc k s hk).1, (henc k s hk).2.1⟩
  have hsc' : sc = S.map (fun _ => none) := by
    have : S.map (·.attrs.scale) = S.map (fun _ => none) := List.map_congr_left (fun s hs => (hnone s hs).1)
    rw [this] at hsc
    rcases hsc with h | h
    · exact h
    · rw [h, List.map_map]; rfl
  have hof' : of = S.map (fun _ => none) := by
    have : S.map (·.attrs.offset) = S.map (fun _ => none) := List.map_congr_left (fun s hs => (hnone s hs).2)
    rw [this] at hof
    rcases hof with h | h
    · exact h
    · rw [h, List.map_map]; rfl
  have hm := mapM_ok (finish src) (fun q => (q.1, q.2.1)) (N.zip (cols.zip (sc.zip of))) (by
    intro q hq
    have h1 := (List.of_mem_zip hq).2
    have h2 := (List.of_mem_zip h1).2
    have h3 := List.of_mem_zip h2
    rw [hsc', hof'] at h3
    obtain ⟨_, _, e1⟩ := List.mem_map.1 h3.1
    obtain ⟨_, _, e2⟩ := List.mem_map.1 h3.2
    unfold finish
    rw [← e1, ← e2]
    rfl)
  rw [hm] at hread
  have hzip : (N.zip (cols.zip (sc.zip of))).map (fun q => (q.1, q.2.1)) = N.zip cols := by
    have h1 : (cols.zip (sc.zip of)).map Prod.fst = cols := by
      rw [List.map_fst_zip]
      simp [hsc', hof', hlen]
    have h2 : N.zip cols = N.zip ((cols.zip (sc.zip of)).map Prod.fst) := by rw [h1]
    rw [h2, List.zip_map_right]
    rfl
  rw [hzip] at hread
  refine ⟨_, hread, ?_, ?_⟩
  · rw [List.map_fst_zip]; omega
  · intro k q hq
    rw [List.getElem?_zip_eq_some] at hq
    exact hshow k q.2 hq.2

/-- **C62.** A binary table is read as it is stored: for every table whose columns can be placed, of any number of rows
and columns (with items and containers), from a compressed or uncompressed file, the result has the columns of the table
in label order, and the value in row `r` of the `k`-th column is the value whose bytes, according to its DATA_TYPE, lie
in the file at the place the label gives. (SCALING_FACTOR and OFFSET: see C63. VAX reals: if `vax.from_vax32` converts them
as it should.) -/
theorem C62_values (src : Source) (hv : ReadsVax src.vax32) (b : Block) (start R L : Nat) (first : Col) (rest : List Format.Spec.Entry)
    (h : Binary b first rest L) (hR : b.rows.getD 1 = R) (hfile : start + R * L ≤ src.file.length) (val : Nat → Nat → Value)
    (henc : ∀ (k : Nat) s, (slots (b.rowPrefix.getD 0) (.col first :: rest))[k]? = some s →
      s.attrs.scale = none ∧ s.attrs.offset = none ∧ ∀ r < R,
        Encodes src.cp500 s.attrs.dataType s.size (bytesAt src.file (start + r * L + s.off.toNat) s.size) (val r k)) :
    ∃ out, readTable src b start = .ok (some out) ∧
      out.map Prod.fst = columnNames (b.rowPrefix.getD 0) (.col first :: rest) ∧
      ∀ (k : Nat) q, out[k]? = some q → Shows q.2 ((List.range R).map (fun r => val r k)) :=
  read_plain src hv b start R L first rest h.toPlaced (recordSize_binary b first rest L h) h.size.1 hR hfile val henc

/-! ### an example -/

/-- two big-endian signed integers of 2 bytes as items -/
def exFirst : Col where
  name := c!"A"
  start := 1
  bytes := 4
  items := some 2
  itemBytes := some 2
  attrs := { dataType := c!"MSB_INTEGER" }

/-- a character column after a truth value -/
def exRest : List Format.Spec.Entry :=
  [.col { name := c!"B", start := 5, bytes := 1, attrs := { dataType := c!"BOOLEAN" } },
   .col { name := c!"C", start := 6, bytes := 2, attrs := { dataType := c!"CHARACTER" } }]

/-- the label of the example: rows of 9 bytes (with 2 to spare) and a suffix of 1 -/
def exBlock : Block where
  name := c!"TABLE"
  rows := some 2
  rowBytes := some 9
  rowSuffix := some 1
  defs := (Entry.col exFirst :: exRest).map Entry.toDef

/-- a file with a header of one byte and two records -/
def exFile : Bytes := [99, 255, 254, 1, 2, 1, 72, 0, 0, 0, 0, 0, 5, 128, 0, 0, 72, 73, 0, 0, 0]

theorem ex_slots : slots 0 (.col exFirst :: exRest) =
    [⟨c!"A", 1, 0, 2, 4, { dataType := c!"MSB_INTEGER" }⟩, ⟨c!"A", 1, 2, 2, 4, { dataType := c!"MSB_INTEGER" }⟩,
     ⟨c!"B", 5, 4, 1, 1, { dataType := c!"BOOLEAN" }⟩, ⟨c!"C", 6, 5, 2, 2, { dataType := c!"CHARACTER" }⟩] := rfl

theorem ex_binary : Binary exBlock exFirst exRest 10 where
  regular := by
    refine ⟨⟨⟨by decide, fun _ => rfl, by intro o h; cases h⟩, ?_⟩, by decide, trivial, ?_⟩
    · intro e he
      simp only [exRest, List.mem_cons, List.not_mem_nil, or_false] at he
      rcases he with rfl | rfl
      · exact ⟨by decide, (by intro h; cases h), (by intro o h; cases h)⟩
      · exact ⟨by decide, (by intro h; cases h), (by intro o h; cases h)⟩
    · decide
  defs := rfl
  table := by intro t h; cases h
  binary := by decide
  types := by
    intro s hs
    rw [show exBlock.rowPrefix.getD 0 = 0 from rfl, ex_slots] at hs
    simp only [List.mem_cons, List.not_mem_nil, or_false] at hs
    have hint : ∃ d, Means (underscored c!"MSB_INTEGER") 2 d :=
      ⟨_, .integer (o := .big) (k := .int) ⟨Or.inl (by decide), by decide⟩ (by decide)
        (by constructor
            · intro h; cases h
            · rintro (h | h | h) <;> exact absurd h (by decide)) (Or.inl rfl)
        (by constructor
            · intro h; cases h
            · intro h; exact absurd h (by decide))⟩
    have hboo : ∃ d, Means (underscored c!"BOOLEAN") 1 d :=
      ⟨_, .integer (o := .big) (k := .int) ⟨Or.inr (by decide), by decide⟩ (by decide)
        (by constructor
            · intro h; cases h
            · rintro (h | h | h) <;> exact absurd h (by decide)) (Or.inl rfl)
        (by constructor
            · intro h; cases h
            · intro h; exact absurd h (by decide))⟩
    have hchr : ∃ d, Means (underscored c!"CHARACTER") 2 d := ⟨_, .text (by decide)⟩
    have hcov : ∀ t, ¬ (c!"IBM" <+: t) → ¬ (c!"VAX" <+: t) → Native t := by
      rintro t h1 h2 ⟨h | h, _⟩
      · exact h1 h
      · exact h2 h
    rcases hs with rfl | rfl | rfl | rfl
    · exact ⟨by decide, Or.inl (hcov _ (by decide) (by decide)), hint⟩
    · exact ⟨by decide, Or.inl (hcov _ (by decide) (by decide)), hint⟩
    · exact ⟨by decide, Or.inl (hcov _ (by decide) (by decide)), hboo⟩
    · exact ⟨by decide, Or.inl (hcov _ (by decide) (by decide)), hchr⟩
  names := by decide
  plain := by decide
  offsets := by decide
  size := by
    refine ⟨by decide, 9, rfl, by decide, by decide, by decide, by decide, [.col exFirst, _], _, rfl, rfl, Or.inl rfl⟩

/-- the names of its columns -/
example : columnNames 0 (.col exFirst :: exRest) = [c!"A_0", c!"A_1", c!"B", c!"C"] := by decide

/-- the values of the example -/
def exVal (r k : Nat) : Value :=
  match r, k with
  | 0, 0 => .int (-2) | 0, 1 => .int 258 | 0, 2 => .bool true | 0, _ => .bytes [72]
  | _, 0 => .int 5 | _, 1 => .int (-32768) | _, 2 => .bool false | _, _ => .bytes [72, 73]

/-- the hypotheses of C62 hold for the example -/
example (src : Source) (hv : ReadsVax src.vax32) (hsrc : src.file = exFile) :
    ∃ out, readTable src exBlock 1 = .ok (some out) ∧ out.map Prod.fst = [c!"A_0", c!"A_1", c!"B", c!"C"] ∧
      ∀ (k : Nat) q, out[k]? = some q → Shows q.2 [exVal 0 k, exVal 1 k] := by
  have hint : ∀ bs (v : Int), bs.length = 2 → (v - number .big bs) % 2 ^ 16 = 0 → -(2 ^ 15) ≤ v → v < 2 ^ 15 →
      Encodes src.cp500 c!"MSB_INTEGER" 2 bs (.int v) := by
    intro bs v h1 h2 h3 h4
    refine .plain (d := ⟨some .big, .int, 2⟩) (.integer ⟨Or.inl (by decide), by decide⟩ (by decide)
        (by constructor
            · intro h; cases h
            · rintro (h | h | h) <;> exact absurd h (by decide)) (Or.inl rfl)
        (by constructor
            · intro h; cases h
            · intro h; exact absurd h (by decide))) (by decide) (by decide) (by rintro ⟨h | h, _⟩ <;> exact absurd h (by decide)) (.signed (by decide) h1 h2 h3 h4)
  have hboo : ∀ bs (v : Int), bs.length = 1 → (v - number .big bs) % 2 ^ 8 = 0 → -(2 ^ 7) ≤ v → v < 2 ^ 7 →
      Encodes src.cp500 c!"BOOLEAN" 1 bs (.bool (v ≠ 0)) := by
    intro bs v h1 h2 h3 h4
    refine .bool (d := ⟨some .big, .int, 1⟩) (.integer ⟨Or.inr (by decide), by decide⟩ (by decide)
        (by constructor
            · intro h; cases h
            · rintro (h | h | h) <;> exact absurd h (by decide)) (Or.inl rfl)
        (by constructor
            · intro h; cases h
            · intro h; exact absurd h (by decide))) (.signed (by decide) h1 h2 h3 h4)
  have hchr : ∀ (bs b : Bytes) (k : Nat), b.length + k = 2 → b.getLast? ≠ some 0 → bs = b ++ List.replicate k 0 →
      Encodes src.cp500 c!"CHARACTER" 2 bs (.bytes b) := by
    intro bs b k h1 h2 h3
    rw [h3]
    exact .plain (.text (by decide)) (by decide) (by decide) (by rintro ⟨h | h, _⟩ <;> exact absurd h (by decide)) (.chars h1 h2)
  have h := C62_values src hv exBlock 1 2 10 exFirst exRest ex_binary rfl (by rw [hsrc]; decide) exVal (by
    intro k s hs
    rw [show exBlock.rowPrefix.getD 0 = 0 from rfl, ex_slots] at hs
    rw [hsrc]
    have hk : k < 4 := by
      by_contra hc
      rw [List.getElem?_eq_none (by simpa using hc)] at hs
      cases hs
    have two : ∀ P : Nat → Prop, P 0 → P 1 → ∀ r < 2, P r := by
      intro P h0 h1 r hr
      rcases (by omega : r = 0 ∨ r = 1) with rfl | rfl
      · exact h0
      · exact h1
    rcases (by omega : k = 0 ∨ k = 1 ∨ k = 2 ∨ k = 3) with rfl | rfl | rfl | rfl
    · cases hs
      exact ⟨rfl, rfl, two _ (hint _ (-2) rfl (by decide) (by decide) (by decide)) (hint _ 5 rfl (by decide) (by decide) (by decide))⟩
    · cases hs
      exact ⟨rfl, rfl, two _ (hint _ 258 rfl (by decide) (by decide) (by decide)) (hint _ (-32768) rfl (by decide) (by decide) (by decide))⟩
    · cases hs
      exact ⟨rfl, rfl, two _ (hboo _ 1 rfl (by decide) (by decide) (by decide)) (hboo _ 0 rfl (by decide) (by decide) (by decide))⟩
    · cases hs
      exact ⟨rfl, rfl, two _ (hchr _ [72] 1 rfl (by decide) rfl) (hchr _ [72, 73] 0 rfl (by decide) rfl)⟩)
  exact h

end Verif.Table
