/-
BINARY ARRAYs of records (C117, C118).
-/
import Verif.Props.Table
import Verif.Props.ImageFile
import Verif.Spec.ArrayRecords

namespace Verif.ArrayRecords
open Verif.Py Verif.Format Verif.Format.Spec Verif.Datatypes Verif.Datatypes.Spec Verif.Table.Spec Verif.Image Verif.Table
  Verif.ImageFile Verif.ImageFile.Spec Spec

/-- what the rows say about their values -/
def rowView (f : Fld) : Str × Int × Nat × Attrs × Option Nat := (f.name, f.startByte, width f, f.attrs, f.axisItems)

/-- what the specification says about them -/
def slotView (s : Slot) : Str × Int × Nat × Attrs × Option Nat := (s.name, s.start, s.size, s.attrs, none)

theorem init_view (T : Info) (p : Int) (es : List Format.Spec.Entry) :
    (es.flatMap (init T p)).map (fun r => rowView r.fld) = (slots p es).map slotView := by
  have hs : ∀ (base : Int) (c : Col), (slotsOf base c).map slotView =
      List.replicate (copies c.items) (c.name, c.start, c.size, c.attrs, none) := by
    intro base c
    simp [slotsOf, slotView, Function.comp_def]
  have hi : ∀ (info : Info) (base : Int) (c : Col), (colRows info base c).map (fun r => rowView r.fld) =
      List.replicate (copies c.items) (c.name, c.start, c.size, c.attrs, none) := by
    intro info base c
    simp [colRows, fldOf, rowView, width, Col.size]
  unfold slots
  rw [List.map_flatMap, List.map_flatMap]
  congr 1
  funext e
  cases e with
  | col c => simp only [init, hs, hi]
  | cont n s b r cs =>
    simp only [init, List.map_flatMap, hs]
    rw [List.map_flatten, List.map_replicate, List.map_flatMap]
    simp only [hi]
    exact flatMap_replicate cs (fun c => copies c.items) (fun c => (c.name, c.start, c.size, c.attrs, none)) (copies r)

theorem structure_view (b : Table.Block) (es : List Format.Spec.Entry) (h : b.defs = es.map Entry.toDef) :
    (structureOf b).map (·.name) = columnNames 0 es ∧
    (structureOf b).map (fun f => (width f, f.attrs, f.axisItems)) = (slots 0 es).map (fun s => (s.size, s.attrs, none)) := by
  have hflat : ∀ d ∈ es.map Entry.toDef, Flat d := by
    intro d hd
    obtain ⟨e, he, rfl⟩ := List.mem_map.1 hd
    cases e with
    | col c => trivial
    | cont n s b r cs =>
      intro c hc
      obtain ⟨c', _, rfl⟩ := List.mem_map.1 hc
      exact Or.inl ⟨_, _, _, _, _, _, _, rfl⟩
  have hview : (readFormatBlock b.tableName none b.bytes b.defs).map rowView = (slots 0 es).map slotView := by
    have h1 := init_view ⟨b.tableName, 1, b.bytes⟩ 0 es
    have h2 := init_fields ⟨b.tableName, 1, b.bytes⟩ none es
    rw [Option.getD_none] at h2
    rw [← h2] at h1
    rw [h, C26_flat_tables _ _ _ _ hflat, ← h1]
    unfold initialRows
    rw [List.map_map]
    rfl
  unfold structureOf
  simp only
  generalize readFormatBlock b.tableName none b.bytes b.defs = fields at *
  have hn : fields.map (·.name) = (slots 0 es).map (·.name) := by
    have := congrArg (List.map (fun q : Str × Int × Nat × Attrs × Option Nat => q.1)) hview
    rwa [List.map_map, List.map_map] at this
  have hs : fields.map (fun f => intStr f.startByte) = (slots 0 es).map (fun s => intStr s.start) := by
    have := congrArg (List.map (fun q : Str × Int × Nat × Attrs × Option Nat => intStr q.2.1)) hview
    rwa [List.map_map, List.map_map] at this
  have hv : fields.map (fun f => (width f, f.attrs, f.axisItems)) = (slots 0 es).map (fun s => (s.size, s.attrs, none)) := by
    have := congrArg (List.map (fun q : Str × Int × Nat × Attrs × Option Nat => q.2.2)) hview
    rwa [List.map_map, List.map_map] at this
  rw [hn, hs]
  have hcn : reindexNames ((slots 0 es).map (·.name)) ((slots 0 es).map (fun s => intStr s.start)) = columnNames 0 es := rfl
  rw [hcn]
  have hlen : (columnNames 0 es).length = fields.length := by
    rw [columnNames, reindexNames_length, ← hn, List.length_map]
  have hzn : ∀ (fs : List Fld) (ns : List Str), ns.length = fs.length →
      (List.zipWith (fun (f : Fld) n => { f with name := n }) fs ns).map (·.name) = ns ∧
      (List.zipWith (fun (f : Fld) n => { f with name := n }) fs ns).map (fun f => (width f, f.attrs, f.axisItems)) =
        fs.map (fun f => (width f, f.attrs, f.axisItems)) := by
    intro fs
    induction fs with
    | nil => intro ns hl; simp at hl; subst hl; exact ⟨rfl, rfl⟩
    | cons f fs ih =>
      intro ns hl
      cases ns with
      | nil => simp at hl
      | cons n ns =>
        obtain ⟨h1, h2⟩ := ih ns (by simpa using hl)
        rw [List.zipWith_cons_cons, List.map_cons, List.map_cons, List.map_cons, h1, h2]
        exact ⟨rfl, rfl⟩
  obtain ⟨hz1, hz2⟩ := hzn fields _ hlen
  exact ⟨hz1, by rw [hz2, hv]⟩

theorem packed_get (at_ : Nat) (ns : List Nat) (k : Nat) (h : k < ns.length) :
    (packed at_ ns)[k]? = some (at_ + (ns.take k).sum) := by
  induction ns generalizing at_ k with
  | nil => simp at h
  | cons n ns ih =>
    cases k with
    | zero => simp [packed]
    | succ k =>
      rw [packed, List.getElem?_cons_succ, ih _ _ (by simpa using h), List.take_succ_cons, List.sum_cons, Nat.add_assoc]

theorem packed_length (at_ : Nat) (ns : List Nat) : (packed at_ ns).length = ns.length := by
  induction ns generalizing at_ with
  | nil => rfl
  | cons n ns ih => simp [packed, ih]

theorem take_sum_le (ns : List Nat) (k n : Nat) (h : ns[k]? = some n) : (ns.take k).sum + n ≤ ns.sum := by
  induction ns generalizing k with
  | nil => simp at h
  | cons m ns ih =>
    cases k with
    | zero => simp at h; subst h; simp
    | succ k =>
      have := ih k (by simpa using h)
      rw [List.take_succ_cons, List.sum_cons, List.sum_cons]
      omega

/-- the dtype of a value -/
def dtSlot (s : Slot) : Dtype := dtOf s.attrs.dataType s.size

/-- what `parse_array_structure` gives -/
theorem parse_defined (a : Block) (es : List Format.Spec.Entry) (h : Defined a es) :
    parseStructure a = .ok ((columnNames 0 es).zip (((slots 0 es).map dtSlot).zip (packed 0 (sizes es)))) := by
  obtain ⟨hn, hv⟩ := structure_view a.b es h.defs
  unfold parseStructure
  simp only
  generalize structureOf a.b = fs at *
  have hmem : ∀ f ∈ fs, f.axisItems = none ∧ ∃ d, Means (underscored f.attrs.dataType) (width f) d := by
    intro f hf
    have : (width f, f.attrs, f.axisItems) ∈ fs.map (fun f => (width f, f.attrs, f.axisItems)) := List.mem_map.2 ⟨f, hf, rfl⟩
    rw [hv] at this
    obtain ⟨s, hs, he⟩ := List.mem_map.1 this
    simp only [Prod.mk.injEq] at he
    obtain ⟨d, hd⟩ := h.types s hs
    rw [← he.1, ← he.2.1, ← he.2.2]
    exact ⟨rfl, d, hd⟩
  rw [Scaling.mapM_ok typed tcol]
  · simp only
    have hnest : nested fs = false := by
      unfold nested
      rw [List.any_eq_false]
      intro name _
      cases name with
      | none => simp
      | some n =>
        simp only [Bool.and_eq_true, not_and]
        intro _
        cases hb : before fs (some n) with
        | none => simp
        | some f =>
          have : f ∈ fs := by
            unfold before at hb
            split at hb
            · cases hb
            · exact List.mem_of_getElem? hb
          simp [(hmem f this).1]
    have hdt : (((fs.map (fun f => (⟨f, 0⟩ : Row))).map tcol).map (·.dt)) = (slots 0 es).map dtSlot := by
      have := congrArg (List.map (fun q : Nat × Attrs × Option Nat => dtOf q.2.1.dataType q.1)) hv
      rw [List.map_map, List.map_map] at this
      rw [List.map_map, List.map_map]
      exact this
    have hsz : (((fs.map (fun f => (⟨f, 0⟩ : Row))).map tcol).map (·.dt.size)) = sizes es := by
      have h1 : (((fs.map (fun f => (⟨f, 0⟩ : Row))).map tcol).map (·.dt.size)) = ((slots 0 es).map dtSlot).map (·.size) := by
        rw [← hdt, List.map_map (f := fun c : TCol => c.dt)]; rfl
      rw [h1, sizes, List.map_map]
      apply List.map_congr_left
      intro s hs
      obtain ⟨d, hd⟩ := h.types s hs
      simp only [Function.comp, dtSlot, (dtOf_means hd).1, (dtOf_means hd).2]
    rw [hnest, hdt, hsz, hn]
    simp [h.names]
  · intro x hx
    obtain ⟨f, hf, rfl⟩ := List.mem_map.1 hx
    obtain ⟨d, hd⟩ := (hmem f hf).2
    exact typed_means hd

theorem flatMap_elems (fields : List (Str × Dtype × Nat)) (r : Bytes) :
    recordOf fields r = fields.map (fun f => (f.1, elemOf (oneVal f.2.1 ((r.drop f.2.2).take f.2.1.size)))) := by
  unfold recordOf
  simp only [elems_eq, List.map_cons, List.map_nil]
  induction fields with
  | nil => rfl
  | cons f fs ih => rw [List.flatMap_cons, ih, List.map_cons]; rfl

/-- what is read, whatever START_BYTEs say -/
theorem read_records (compressed : Bool) (file : Bytes) (a : Block) (start : Nat) (es : List Format.Spec.Entry) (h : Defined a es)
    (hen : start + prod a.axisItems * (sizes es).sum ≤ file.length) :
    ∃ A, readArray compressed file a start = .ok A ∧ A.shape = a.axisItems ∧
      ∀ ix, Within a.axisItems ix → ∃ r, A.get ix = some r ∧ r.map Prod.fst = columnNames 0 es ∧
        ∀ (k : Nat) (s : Slot) (d : Dtype) (n : Str) (v : Value), (slots 0 es)[k]? = some s → (columnNames 0 es)[k]? = some n →
          Means (underscored s.attrs.dataType) s.size d →
          Stored d (bytesAt file (start + lastFastest a.axisItems ix * (sizes es).sum + ((sizes es).take k).sum) s.size) v →
          FieldHas r n v := by
  have hp := parse_defined a es h
  generalize hF : (columnNames 0 es).zip (((slots 0 es).map dtSlot).zip (packed 0 (sizes es))) = fields at *
  have hl1 : (columnNames 0 es).length = (slots 0 es).length := by
    rw [columnNames, reindexNames_length, List.length_map]
  have hl2 : (sizes es).length = (slots 0 es).length := by rw [sizes, List.length_map]
  have hnames : fields.map (·.1) = columnNames 0 es := by
    rw [← hF, List.map_fst_zip]
    rw [List.length_zip, List.length_map, packed_length, hl2, hl1, Nat.min_self]
  have hsz : (fields.map (·.2.1.size)) = sizes es := by
    have h1 : fields.map (·.2) = ((slots 0 es).map dtSlot).zip (packed 0 (sizes es)) := by
      rw [← hF, List.map_snd_zip]
      rw [List.length_zip, List.length_map, packed_length, hl2, hl1, Nat.min_self]
    have h2 : fields.map (·.2.1) = (slots 0 es).map dtSlot := by
      have := congrArg (List.map Prod.fst) h1
      rw [List.map_map, List.map_fst_zip (by rw [List.length_map, packed_length, hl2])] at this
      exact this
    have h3 := congrArg (List.map (fun d : Dtype => d.size)) h2
    rw [List.map_map, List.map_map] at h3
    rw [show (fields.map (·.2.1.size)) = fields.map ((fun d : Dtype => d.size) ∘ (fun x => x.2.1)) from rfl, h3, sizes]
    apply List.map_congr_left
    intro s hs
    obtain ⟨d, hd⟩ := h.types s hs
    simp only [Function.comp, dtSlot, (dtOf_means hd).1, (dtOf_means hd).2]
  generalize hR : (List.range (prod a.axisItems)).map (fun r => recordOf fields (bytesAt file (start + r * (sizes es).sum) (sizes es).sum)) = recs
  have hlen : recs.length = prod a.axisItems := by rw [← hR]; simp
  have hr := reshape_ofList recs id a.axisItems hlen
  have hid : (Arr.ofList recs).map id = Arr.ofList recs := by
    unfold Arr.map
    simp
  rw [hid] at hr
  refine ⟨⟨a.axisItems, fun idx => (recs[ravel a.axisItems idx]?).map id⟩, ?_, rfl, ?_⟩
  · unfold readArray
    rw [hp]
    simp only
    rw [hsz, readRecords_eq _ _ _ _ _ h.size hen]
    simp only
    rw [List.map_map]
    have : (recordOf fields ∘ fun r => bytesAt file (start + r * (sizes es).sum) (sizes es).sum) =
      (fun r => recordOf fields (bytesAt file (start + r * (sizes es).sum) (sizes es).sum)) := rfl
    rw [this, hR]
    exact hr
  · intro ix hix
    have hlt := ravel_lt _ ix hix
    have hrav := ravel_last _ ix hix.length_eq
    refine ⟨recordOf fields (bytesAt file (start + ravel a.axisItems ix * (sizes es).sum) (sizes es).sum), ?_, ?_, ?_⟩
    · simp only [← hR, List.getElem?_map, List.getElem?_range hlt, Option.map_some, id]
    · rw [flatMap_elems, List.map_map]; exact hnames
    · intro k s d n v hk hn hm hst
      rw [flatMap_elems, hrav]
      have hsk : (sizes es)[k]? = some s.size := by rw [sizes, List.getElem?_map, hk]; rfl
      have hklt : k < (sizes es).length := by
        by_contra hc
        rw [List.getElem?_eq_none (by omega)] at hsk; cases hsk
      have hfk : fields[k]? = some (n, dtSlot s, ((sizes es).take k).sum) := by
        rw [← hF, List.getElem?_zip_eq_some, List.getElem?_zip_eq_some, List.getElem?_map, hk, packed_get _ _ _ hklt]
        exact ⟨hn, rfl, by simp⟩
      have hle := take_sum_le _ _ _ hsk
      have hd : dtSlot s = d ∧ d.size = s.size := dtOf_means hm
      have hb := bytesAt_within file (start + lastFastest a.axisItems ix * (sizes es).sum) (sizes es).sum ((sizes es).take k).sum s.size hle
      refine ⟨_, List.mem_map.2 ⟨_, List.mem_of_getElem? hfk, rfl⟩, ?_, ?_⟩
      · intro e' he'
        obtain ⟨f, hf, he⟩ := List.mem_map.1 he'
        obtain ⟨j, hj⟩ := List.getElem?_of_mem hf
        have hnd := h.names
        rw [← hnames] at hnd
        have e1 : (fields.map (·.1))[j]? = some n := by rw [List.getElem?_map, hj]; simp only [Prod.mk.injEq] at he; simp [he.1]
        have e2 : (fields.map (·.1))[k]? = some n := by rw [List.getElem?_map, hfk]; rfl
        have : j = k := by
          have hj' : j < (fields.map (·.1)).length := by
            by_contra hc
            rw [List.getElem?_eq_none (by omega)] at e1; cases e1
          exact (List.getElem?_inj hj' hnd).1 (e1.trans e2.symm)
        subst this
        rw [hfk] at hj
        cases hj
        simp only [Prod.mk.injEq] at he
        exact he.2.symm
      · simp only [hd.1, hd.2]
        rw [hb]
        exact is_elemOf hst

/-- **C117.** A BINARY ARRAY of records whose values follow each other without gaps, compressed or not: the element with index
`ix` has one field for each value of the record (with the names a table would have), and the field is the value that the label
puts at its place in the record with number `lastFastest ix`. -/
theorem C117_records (compressed : Bool) (file : Bytes) (a : Block) (start : Nat) (es : List Format.Spec.Entry) (h : Defined a es)
    (hdense : Dense es) (hen : start + prod a.axisItems * (sizes es).sum ≤ file.length) :
    ∃ A, readArray compressed file a start = .ok A ∧ A.shape = a.axisItems ∧
      ∀ ix, Within a.axisItems ix → ∃ r, A.get ix = some r ∧ r.map Prod.fst = columnNames 0 es ∧
        ∀ (k : Nat) (s : Slot) (d : Dtype) (n : Str) (v : Value), (slots 0 es)[k]? = some s → (columnNames 0 es)[k]? = some n →
          Means (underscored s.attrs.dataType) s.size d →
          Stored d (bytesAt file (start + lastFastest a.axisItems ix * (sizes es).sum + s.off.toNat) s.size) v →
          FieldHas r n v := by
  obtain ⟨A, h1, h2, h3⟩ := read_records compressed file a start es h hen
  refine ⟨A, h1, h2, ?_⟩
  intro ix hix
  obtain ⟨r, r1, r2, r3⟩ := h3 ix hix
  refine ⟨r, r1, r2, ?_⟩
  intro k s d n v hk hn hm hst
  apply r3 k s d n v hk hn hm
  rw [hdense k s hk, Int.toNat_natCast] at hst
  exact hst

/-- **C118 (limit: places).** Whatever START_BYTE, ITEM_OFFSET and the BYTES of COLLECTIONs say, the values of a record are taken
from the file one directly after the other, and the records too: a value that the label puts elsewhere is not the one that the
field shows. -/
theorem C118_no_gaps (compressed : Bool) (file : Bytes) (a : Block) (start : Nat) (es : List Format.Spec.Entry) (h : Defined a es)
    (hen : start + prod a.axisItems * (sizes es).sum ≤ file.length) :
    ∃ A, readArray compressed file a start = .ok A ∧ A.shape = a.axisItems ∧
      ∀ ix, Within a.axisItems ix → ∃ r, A.get ix = some r ∧ r.map Prod.fst = columnNames 0 es ∧
        ∀ (k : Nat) (s : Slot) (d : Dtype) (n : Str) (v : Value), (slots 0 es)[k]? = some s → (columnNames 0 es)[k]? = some n →
          Means (underscored s.attrs.dataType) s.size d →
          Stored d (bytesAt file (start + lastFastest a.axisItems ix * (sizes es).sum + ((sizes es).take k).sum) s.size) v →
          FieldHas r n v :=
  read_records compressed file a start es h hen

theorem reindex_nodup (names starts : List Str) (h : names.Nodup) : reindexNames names starts = names := by
  unfold reindexNames
  apply List.ext_getElem
  · simp
  · intro i h1 h2
    rw [List.getElem_map, List.getElem_range]
    have hg : names.getD i [] = names[i] := by rw [List.getD_eq_getElem?_getD, List.getElem?_eq_getElem h2]; rfl
    simp only [hg]
    rw [if_pos (List.nodup_iff_count_le_one.1 h _)]

/-- a field of the definition -/
def fieldOf (info : Info) (c : Col) : Fld where
  name := c.name
  startByte := c.start
  bytes := c.bytes
  itemBytes := c.itemBytes
  itemOffset := c.itemOffset
  blockName := info.name
  blockReps := info.reps
  blockBytes := info.bytes
  attrs := c.attrs

theorem entries_cols (info : Info) (cs : List Col) (h : ∀ c ∈ cs, c.items = none) (st : St) (hst : st.add = false) :
    (readEntries info (cs.map Col.toDef) st).fields = st.fields ++ cs.map (fieldOf info) := by
  induction cs generalizing st with
  | nil => simp [readEntries]
  | cons c cs ih =>
    rw [List.map_cons, readEntries, ih (fun c hc => h c (List.mem_cons_of_mem _ hc))]
    · simp only [Col.toDef, readEntry, hst, h c List.mem_cons_self, appendObj, Bool.false_eq_true, if_false]
      rw [List.append_assoc]
      rfl
    · exact hst

/-- the definition of an ARRAY whose subobject is an ARRAY with AXIS_ITEMS, of the elements `cs` -/
theorem nested_fields (b : Table.Block) (n : Str) (s : Int) (bytes : Option Nat) (m : Nat) (cs : List Col)
    (hd : b.defs = [.array n s bytes (some m) (cs.map Col.toDef)]) (hi : ∀ c ∈ cs, c.items = none)
    (hn : (placeholderName n :: cs.map (·.name)).Nodup) :
    structureOf b = placeholderField ⟨b.tableName, 1, b.bytes⟩ n s 1 bytes (some m) :: cs.map (fieldOf ⟨some n, 1, bytes⟩) := by
  have hf : readFormatBlock b.tableName none b.bytes b.defs =
      placeholderField ⟨b.tableName, 1, b.bytes⟩ n s 1 bytes (some m) :: cs.map (fieldOf ⟨some n, 1, bytes⟩) := by
    rw [hd]
    unfold readFormatBlock
    simp only [readEntries, readEntry, appendObj, List.nil_append, Option.getD_none]
    rw [entries_cols _ _ hi _ rfl]
    rfl
  unfold structureOf
  simp only
  rw [hf]
  generalize hF : placeholderField ⟨b.tableName, 1, b.bytes⟩ n s 1 bytes (some m) :: cs.map (fieldOf ⟨some n, 1, bytes⟩) = fields
  have hnames : fields.map (·.name) = placeholderName n :: cs.map (·.name) := by
    rw [← hF, List.map_cons, List.map_map]; rfl
  rw [reindex_nodup _ _ (by rw [hnames]; exact hn)]
  clear hF hf hnames
  induction fields with
  | nil => rfl
  | cons f fs ih => rw [List.map_cons, List.zipWith_cons_cons, ih]

/-- **C118 (limit: ARRAYs in ARRAYs).** An ARRAY whose subobject is an ARRAY with AXIS_ITEMS that has elements itself is not
read at all: there is a KeyError. -/
theorem C118_nested (compressed : Bool) (file : Bytes) (a : Block) (start : Nat) (n : Str) (s : Int) (bytes : Option Nat) (m : Nat)
    (c : Col) (cs : List Col) (hd : a.b.defs = [.array n s bytes (some m) ((c :: cs).map Col.toDef)])
    (hi : ∀ c' ∈ c :: cs, c'.items = none) (hnames : (placeholderName n :: (c :: cs).map (·.name)).Nodup)
    (hc : c.name ≠ c!"PLACEHOLDER_0") (hn : n ≠ [] ∧ n ≠ c!"0" ∧ n ≠ placeholderName (a.b.tableName.getD c!"None"))
    (ht : ∀ c' ∈ c :: cs, ∃ d, Means (underscored c'.attrs.dataType) c'.size d) :
    readArray compressed file a start = .error .keyError := by
  have hs := nested_fields a.b n s bytes m (c :: cs) hd hi hnames
  have hp : parseStructure a = .error .keyError := by
    unfold parseStructure
    rw [hs]
    simp only
    rw [Scaling.mapM_ok typed tcol]
    · simp only
      rw [if_pos]
      unfold nested blockNames
      rw [List.map_cons, List.map_cons, List.map_cons, List.filter_cons_of_pos, List.filter_cons_of_pos, List.map_cons, List.map_cons]
      · simp only [uniq]
        rw [List.filter_cons_of_pos]
        · rw [List.drop_one, List.tail_cons, List.any_cons]
          simp only [fieldOf, Bool.or_eq_true]
          left
          simp only [before]
          rw [List.findIdx_cons, List.findIdx_cons]
          have h0 : decide ((placeholderField ⟨a.b.tableName, 1, a.b.bytes⟩ n s 1 bytes (some m)).blockName = some n) = false := by
            rw [decide_eq_false_iff_not]
            intro he
            exact hn.2.2 (Option.some.inj he).symm
          rw [h0]
          simp [hn.1, placeholderField]
        · rw [decide_eq_true_iff]
          intro he
          exact hn.2.2 (Option.some.inj he)
      · exact decide_eq_true hc
      · refine decide_eq_true ?_
        intro he
        exact hn.2.1 (List.append_cancel_left (show c!"PLACEHOLDER_" ++ n = c!"PLACEHOLDER_" ++ c!"0" from he))
    · intro x hx
      obtain ⟨f, hf, rfl⟩ := List.mem_map.1 hx
      rcases List.mem_cons.1 hf with rfl | hf
      · exact typed_means (d := ⟨none, .void, 0⟩) (.raw (show underscored voidType ∈ _ by decide))
      · obtain ⟨c', hc', rfl⟩ := List.mem_map.1 hf
        obtain ⟨d, hd⟩ := ht c' hc'
        exact typed_means (d := d) hd
  unfold readArray
  rw [hp]

/-! ### an example -/

/-- a COLLECTION of a number of two bytes and two numbers of one byte -/
def exEntries : List Format.Spec.Entry :=
  [.col { name := c!"A", start := 1, bytes := 2, attrs := { dataType := c!"MSB_UNSIGNED_INTEGER" } },
   .cont c!"PAIR" 3 1 (some 2) [{ name := c!"B", start := 1, bytes := 1, attrs := { dataType := c!"UNSIGNED_INTEGER" } }]]

/-- an ARRAY of two of them -/
def exArray : Block where
  b := { name := c!"ARRAY", tableName := some c!"RECORDS", defs := exEntries.map Entry.toDef }
  axisItems := [2]

theorem ex_slots : (slots 0 exEntries).map (fun s => (s.off, s.size)) = [((0 : Int), 2), (2, 1), (3, 1)] := by decide

theorem ex_sizes : sizes exEntries = [2, 1, 1] := by decide

theorem ex_names : columnNames 0 exEntries = [c!"A", c!"B_0", c!"B_1"] := by decide +kernel

theorem ex_means2 : Means (underscored c!"MSB_UNSIGNED_INTEGER") 2 ⟨some .big, .uint, 2⟩ :=
  .integer (o := .big) (k := .uint) ⟨Or.inl (by decide), by decide⟩ (by decide)
    (by constructor
        · intro h; cases h
        · rintro (h | h | h) <;> exact absurd h (by decide)) (Or.inr rfl) ⟨fun _ => by decide, fun _ => rfl⟩

theorem ex_means1 : Means (underscored c!"UNSIGNED_INTEGER") 1 ⟨some .big, .uint, 1⟩ :=
  .integer (o := .big) (k := .uint) ⟨Or.inl (by decide), by decide⟩ (by decide)
    (by constructor
        · intro h; cases h
        · rintro (h | h | h) <;> exact absurd h (by decide)) (Or.inr rfl) ⟨fun _ => by decide, fun _ => rfl⟩

theorem ex_defined : Defined exArray exEntries where
  defs := rfl
  types := by
    intro s hs
    have : s.attrs = { dataType := c!"MSB_UNSIGNED_INTEGER" } ∧ s.size = 2 ∨ s.attrs = { dataType := c!"UNSIGNED_INTEGER" } ∧ s.size = 1 := by
      simp [slots, exEntries, slotsOf, copies, List.range_succ] at hs
      rcases hs with rfl | rfl | rfl <;> simp [Col.size]
    rcases this with ⟨h1, h2⟩ | ⟨h1, h2⟩ <;> rw [h1, h2]
    · exact ⟨_, ex_means2⟩
    · exact ⟨_, ex_means1⟩
  names := by rw [ex_names]; decide
  size := by rw [ex_sizes]; decide

theorem ex_dense : Dense exEntries := by
  intro k s hk
  have h1 : ((slots 0 exEntries).map (fun s => (s.off, s.size)))[k]? = some (s.off, s.size) := by rw [List.getElem?_map, hk]; rfl
  rw [ex_slots] at h1
  rw [ex_sizes]
  match k with
  | 0 => simp at h1; simp [← h1.1]
  | 1 => simp at h1; simp [← h1.1]
  | 2 => simp at h1; simp [← h1.1]
  | k + 3 => simp at h1

/-- the field B_1 of the second record of a file with a byte before the array -/
example : ∃ A r, readArray false [9, 0, 1, 2, 3, 1, 0, 4, 5] exArray 1 = .ok A ∧ A.get [1] = some r ∧ FieldHas r c!"B_1" (.int 5) := by
  obtain ⟨A, h1, -, h3⟩ := C117_records false [9, 0, 1, 2, 3, 1, 0, 4, 5] exArray 1 exEntries ex_defined ex_dense (by rw [ex_sizes]; decide)
  obtain ⟨r, r1, -, r3⟩ := h3 [1] (.cons (by decide) .nil)
  refine ⟨A, r, h1, r1, ?_⟩
  refine r3 2 ⟨c!"B", 1, 3, 1, 1, { dataType := c!"UNSIGNED_INTEGER" }⟩ _ _ _ rfl (by rw [ex_names]; rfl) ex_means1 ?_
  rw [ex_sizes]
  exact .unsigned rfl (by decide)

/-- a record with an unused byte before the second value -/
def exGap : List Format.Spec.Entry :=
  [.col { name := c!"A", start := 1, bytes := 2, attrs := { dataType := c!"MSB_UNSIGNED_INTEGER" } },
   .col { name := c!"B", start := 4, bytes := 1, attrs := { dataType := c!"UNSIGNED_INTEGER" } }]

/-- the field B shows 7, the unused byte, and not 8 -/
example : ∃ A r, readArray false [0, 1, 7, 8] { b := { name := c!"ARRAY", defs := exGap.map Entry.toDef }, axisItems := [1] } 0 = .ok A ∧
    A.get [0] = some r ∧ FieldHas r c!"B" (.int 7) := by
  have hnames : columnNames 0 exGap = [c!"A", c!"B"] := by decide +kernel
  have hsizes : sizes exGap = [2, 1] := by decide
  have hdef : Defined { b := { name := c!"ARRAY", defs := exGap.map Entry.toDef }, axisItems := [1] } exGap := by
    refine ⟨rfl, ?_, by rw [hnames]; decide, by rw [hsizes]; decide⟩
    intro s hs
    have : s.attrs = { dataType := c!"MSB_UNSIGNED_INTEGER" } ∧ s.size = 2 ∨ s.attrs = { dataType := c!"UNSIGNED_INTEGER" } ∧ s.size = 1 := by
      simp [slots, exGap, slotsOf, copies, List.range_succ] at hs
      rcases hs with rfl | rfl <;> simp [Col.size]
    rcases this with ⟨h1, h2⟩ | ⟨h1, h2⟩ <;> rw [h1, h2]
    · exact ⟨_, ex_means2⟩
    · exact ⟨_, ex_means1⟩
  obtain ⟨A, h1, -, h3⟩ := C118_no_gaps false [0, 1, 7, 8] _ 0 exGap hdef (by rw [hsizes]; decide)
  obtain ⟨r, r1, -, r3⟩ := h3 [0] (.cons (by decide) .nil)
  refine ⟨A, r, h1, r1, ?_⟩
  refine r3 1 ⟨c!"B", 4, 3, 1, 1, { dataType := c!"UNSIGNED_INTEGER" }⟩ _ _ _ rfl (by rw [hnames]; rfl) ex_means1 ?_
  rw [hsizes]
  exact .unsigned rfl (by decide)

/-- an ARRAY of 2 ARRAYs of 3 numbers -/
example (file : Bytes) : readArray false file { b := { name := c!"ARRAY", tableName := some c!"OUTER", defs :=
      [.array c!"INNER" 1 (some 3) (some 3) [.column c!"X" 1 1 none none none { dataType := c!"UNSIGNED_INTEGER" }]] }, axisItems := [2] } 0 =
    .error .keyError :=
  C118_nested false file _ 0 c!"INNER" 1 (some 3) 3
    { name := c!"X", start := 1, bytes := 1, attrs := { dataType := c!"UNSIGNED_INTEGER" } } [] rfl
    (by intro c hc; rw [List.mem_singleton] at hc; subst hc; rfl) (by decide) (by decide) ⟨by decide, by decide, by decide⟩
    (by intro c hc; rw [List.mem_singleton] at hc; subst hc; exact ⟨_, ex_means1⟩)

end Verif.ArrayRecords
