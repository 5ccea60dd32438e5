/-
Examples for C119 and C120.
-/
import Verif.Props.Product
import Verif.Props.BitTableExamples

namespace Verif.Product
open Verif.Py Verif.Pvl Verif.Pvl.Spec Verif.Meta.Spec Verif.Literal Verif.Format Verif.Format.Spec Verif.Product.Spec
open Verif.BitTable (bitFirst bitFirst' bitRest bitBlock bitFile exObj ex_declares ex_read bit_slots bit_binary)

/-- a column with two BIT_COLUMNs -/
def exFlags : MDict Val :=
  [(c!"NAME", .leaf (.str c!"FLAGS")), (c!"DATA_TYPE", .leaf (.str c!"UNSIGNED_INTEGER")), (c!"START_BYTE", .leaf (.int 1)), (c!"BYTES", .leaf (.int 2)),
   (c!"BIT_COLUMN", .node [(c!"NAME", .leaf (.str c!"A")), (c!"BIT_DATA_TYPE", .leaf (.str c!"LSB_UNSIGNED_INTEGER")),
     (c!"START_BIT", .leaf (.int 1)), (c!"BITS", .leaf (.int 3))]),
   (c!"BIT_COLUMN", .node [(c!"NAME", .leaf (.str c!"B")), (c!"START_BIT", .leaf (.int 5)), (c!"ITEMS", .leaf (.int 2)), (c!"ITEM_BITS", .leaf (.int 4))])]

/-- a column, part of which is in a format file -/
def exText : MDict Val := [(c!"NAME", .leaf (.str c!"C")), (c!"^STRUCTURE", .leaf (.str c!"C.FMT"))]

/-- three format files: T.FMT has a TABLE with the first column and a pointer to U.FMT, which has the second column; that has a
pointer to C.FMT. -/
def exFiles : Files
  | .str n =>
    if n = c!"T.FMT" then some [(c!"TABLE", .node [(c!"COLUMN", .node exFlags), (c!"^ROW_STRUCTURE", .leaf (.str c!"U.FMT"))])]
    else if n = c!"U.FMT" then some [(c!"NOTE", .leaf .none), (c!"COLUMN", .node exText)]
    else if n = c!"C.FMT" then some [(c!"DATA_TYPE", .leaf (.str c!"CHARACTER")), (c!"START_BYTE", .leaf (.int 3)), (c!"BYTES", .leaf (.int 2))]
    else none
  | _ => none

/-- the block of the table -/
def exKids : MDict Val :=
  [(c!"ROWS", .leaf (.int 2)), (c!"ROW_BYTES", .leaf (.int 4)), (c!"^STRUCTURE", .leaf (.str c!"T.FMT"))]

/-- the block of an image with a line prefix of one pixel -/
def exPicture : MDict Val :=
  [(c!"LINES", .leaf (.int 2)), (c!"LINE_SAMPLES", .leaf (.int 2)), (c!"SAMPLE_BITS", .leaf (.int 16)), (c!"LINE_PREFIX_BYTES", .leaf (.int 2)),
   (c!"SAMPLE_TYPE", .leaf (.str c!"MSB INTEGER"))]

/-- a label: the table starts with record 3 of the file X.DAT, the records of which have 2 bytes; the image starts at byte 4. -/
def exLabel : MDict Val :=
  [(c!"RECORD_BYTES", .leaf (.int 2)), (c!"^TABLE", .leaf (.tuple [.str c!"X.DAT", .int 3])),
   (c!"^IMAGE", .leaf (.quantity (.int 4) (.str c!"BYTES"))), (c!"TABLE", .node exKids), (c!"IMAGE", .node exPicture)]

open Verif.Table Verif.Table.Spec Verif.Datatypes Verif.Datatypes.Spec

theorem not_format {k : Str} (h : Objects.structurePointer k = false) : ¬ ToFormatFile k := by
  intro hx
  rw [struct_yes hx] at h
  cases h

theorem ex_says (R : Float.Rounding Float.double) : TableSays R exFiles exKids bitBlock (.col bitFirst :: bitRest) where
  tableName := by show c!"NAME" ∉ _; decide
  bytes := by show c!"BYTES" ∉ _; decide
  rows := ⟨[], _, rfl, by decide⟩
  rowBytes := ⟨[(c!"ROWS", .leaf (.int 2))], _, rfl, by decide⟩
  rowPrefix := by show c!"ROW_PREFIX_BYTES" ∉ _; decide
  rowSuffix := by show c!"ROW_SUFFIX_BYTES" ∉ _; decide
  interchange := by show c!"INTERCHANGE_FORMAT" ∉ _; decide
  once := by show c!"REPETITIONS" ∉ _; decide
  columns := by
    refine .skip (by decide) (not_format rfl) (.skip (by decide) (not_format rfl) (.file (Or.inl rfl) (.table (k := c!"TABLE") rfl (by decide)) ?_))
    refine .column (d := exFlags) (by decide) (.plain (by show c!"^STRUCTURE" ∉ _; decide)) ?_ ?_
    · exact {
        name := ⟨[], _, rfl, by decide⟩
        start := ⟨[(c!"NAME", .leaf (.str c!"FLAGS")), (c!"DATA_TYPE", .leaf (.str c!"UNSIGNED_INTEGER"))], _, rfl, by decide⟩
        bytes := ⟨[(c!"NAME", .leaf (.str c!"FLAGS")), (c!"DATA_TYPE", .leaf (.str c!"UNSIGNED_INTEGER")), (c!"START_BYTE", .leaf (.int 1))], _, rfl, by decide⟩
        items := by show c!"ITEMS" ∉ _; decide
        itemBytes := by show c!"ITEM_BYTES" ∉ _; decide
        itemOffset := by show c!"ITEM_OFFSET" ∉ _; decide
        dataType := ⟨[(c!"NAME", .leaf (.str c!"FLAGS"))], _, rfl, by decide⟩
        scale := by show c!"SCALING_FACTOR" ∉ _; decide
        offset := by show c!"OFFSET" ∉ _; decide
        bits := by
          refine ⟨rfl, ?_, exFlags.take 4, [(c!"NAME", .leaf (.str c!"A")), (c!"BIT_DATA_TYPE", .leaf (.str c!"LSB_UNSIGNED_INTEGER")),
            (c!"START_BIT", .leaf (.int 1)), (c!"BITS", .leaf (.int 3))], exFlags.drop 5, rfl, by show c!"BIT_COLUMN" ∉ (exFlags.take 4).map Prod.fst; decide,
            ⟨[(c!"NAME", .leaf (.str c!"A"))], _, rfl, by decide⟩⟩
          refine .skip (by decide) (.skip (by decide) (.skip (by decide) (.skip (by decide) (.column ?_ (.column ?_ .nil)))))
          · exact {
              name := ⟨[], _, rfl, by decide⟩
              items := by show c!"ITEMS" ∉ _; decide
              itemBits := by show c!"ITEM_BITS" ∉ _; decide
              startBit := ⟨[(c!"NAME", .leaf (.str c!"A")), (c!"BIT_DATA_TYPE", .leaf (.str c!"LSB_UNSIGNED_INTEGER"))], _, rfl, by decide⟩
              bits := ⟨[(c!"NAME", .leaf (.str c!"A")), (c!"BIT_DATA_TYPE", .leaf (.str c!"LSB_UNSIGNED_INTEGER")), (c!"START_BIT", .leaf (.int 1))], _, rfl, by decide⟩ }
          · exact {
              name := ⟨[], _, rfl, by decide⟩
              items := ⟨[(c!"NAME", .leaf (.str c!"B")), (c!"START_BIT", .leaf (.int 5))], _, rfl, by decide⟩
              itemBits := ⟨[(c!"NAME", .leaf (.str c!"B")), (c!"START_BIT", .leaf (.int 5)), (c!"ITEMS", .leaf (.int 2))], _, rfl, by decide⟩
              startBit := ⟨[(c!"NAME", .leaf (.str c!"B"))], _, rfl, by decide⟩
              bits := by show c!"BITS" ∉ _; decide }
        noElements := by show c!"BIT_ELEMENT" ∉ _; decide }
    · refine .file (Or.inr ⟨c!"ROW", by decide, by decide, rfl⟩) (.all (b := [(c!"NOTE", .leaf .none), (c!"COLUMN", .node exText)]) rfl (by intro k t h; cases h)) ?_
      refine .skip (by decide) (not_format rfl) (.column (by decide)
        (.files (by intro h; exact h (by show c!"^STRUCTURE" ∈ [c!"NAME", c!"^STRUCTURE"]; decide))
          (.keep (not_format rfl) (.file (Or.inl rfl) (.all (b := [_, _, _]) rfl (by intro k t h; cases h)) .nil))) ?_ .nil)
      exact {
        name := ⟨[], _, rfl, by decide⟩
        start := ⟨[(c!"NAME", .leaf (.str c!"C")), (c!"DATA_TYPE", .leaf (.str c!"CHARACTER"))], _, rfl, by decide⟩
        bytes := ⟨[(c!"NAME", .leaf (.str c!"C")), (c!"DATA_TYPE", .leaf (.str c!"CHARACTER")), (c!"START_BYTE", .leaf (.int 3))], _, rfl, by decide⟩
        items := by show c!"ITEMS" ∉ _; decide
        itemBytes := by show c!"ITEM_BYTES" ∉ _; decide
        itemOffset := by show c!"ITEM_OFFSET" ∉ _; decide
        dataType := ⟨[(c!"NAME", .leaf (.str c!"C"))], _, rfl, by decide⟩
        scale := by show c!"SCALING_FACTOR" ∉ _; decide
        offset := by show c!"OFFSET" ∉ _; decide
        bits := by show c!"BIT_COLUMN" ∉ _; decide
        noElements := by show c!"BIT_ELEMENT" ∉ _; decide }
  defs := rfl

/-- The hypotheses of C119 can be met: the table of this label, with its format files, in a file with 4 other bytes before it, after a
lookup. -/
example (src : Source) (hv : ReadsVax src.vax32) (hf : src.file = [9, 9, 9, 9] ++ bitFile) (params : List Str)
    (hp : ∀ k, k ∈ params ↔ k ∈ keys exLabel) :
    ∃ N, ∀ fuel ≥ N, ∃ out, table ⟨c!"X", false, false⟩ exFiles fuel src (Meta.run env (Meta.new exLabel params) [.get c!"ROWS" .none true]) c!"TABLE" =
        some (.ok (some out)) ∧ out.map Prod.fst = [c!"FLAGS", c!"C"] ∧
      ∃ q, out[0]? = some q ∧ q.2 = .bits [[c!"101", c!"0001", c!"0000"], [c!"000", c!"0001", c!"1000"]] := by
  have hchr : ∀ (bs b : Bytes) (k : Nat), b.length + k = 2 → b.getLast? ≠ some 0 → bs = b ++ List.replicate k 0 →
      Encodes src.cp500 c!"CHARACTER" 2 bs (.bytes b) := by
    intro bs b k h1 h2 h3
    rw [h3]
    exact .plain (.text (by decide)) (by decide) (by decide) (by rintro ⟨h | h, _⟩ <;> exact absurd h (by decide)) (.chars h1 h2)
  obtain ⟨out, N, h1, h2, _, h4⟩ := C119_table ⟨c!"X", false, false⟩ exFiles src hv exLabel params hp
    exKids (.tuple [.str c!"X.DAT", .int 3]) (some 2) 4 bitBlock bitFirst bitFirst' bitRest bitRest 4 2
    (.here (pre := [_, _, _]) (by show c!"TABLE" ∉ [c!"RECORD_BYTES", c!"^TABLE", c!"^IMAGE"]; decide))
    (.here (pre := [_]) (by show c!"^TABLE" ∉ [c!"RECORD_BYTES"]; decide))
    (.label (by show c!"RECORD_BYTES" ∉ _; decide) (.here (pre := []) (by simp)))
    (.inFile (.record (n := 2) rfl)) (by
        refine ⟨?_, Or.inr ⟨2, .here (pre := []) (by simp)⟩⟩
        intro k hk
        simp only [List.mem_cons, List.not_mem_nil, or_false] at hk
        rcases hk with rfl | rfl | rfl | rfl | rfl | rfl
        · exact ⟨none, by show c!"RECORD_BYTES" ∉ _; decide⟩
        · exact ⟨none, by show c!"BYTES" ∉ _; decide⟩
        · exact ⟨none, by show c!"RECORDS" ∉ _; decide⟩
        · exact ⟨some 2, [], _, rfl, by decide⟩
        · exact ⟨some 4, [(c!"ROWS", .leaf (.int 2))], _, rfl, by decide⟩
        · exact ⟨none, by show c!"ROW_SUFFIX_BYTES" ∉ _; decide⟩) (ex_says src.R) ex_read bit_binary (by decide) rfl (fun _ => by decide)
    (by rw [hf]; decide) (fun r _ => if r = 0 then .bytes [72] else .bytes [72, 73]) (by
      intro k s hs hb
      rw [show bitBlock.rowPrefix.getD 0 = 0 from rfl, bit_slots] at hs
      match k with
      | 0 => simp only [List.getElem?_cons_zero, Option.some.injEq] at hs; subst hs; cases hb
      | 1 =>
        simp only [List.getElem?_cons_succ, List.getElem?_cons_zero, Option.some.injEq] at hs
        subst hs
        refine ⟨?_, Or.inl ⟨rfl, rfl⟩⟩
        intro r hr
        rw [hf]
        match r with
        | 0 => exact hchr _ [72] 1 rfl (by decide) (by decide)
        | 1 => exact hchr _ [72, 73] 0 rfl (by decide) (by decide)
        | r + 2 => omega
      | k + 2 => simp at hs) (by
      intro k s o hs ho
      rw [show bitBlock.rowPrefix.getD 0 = 0 from rfl, bit_slots] at hs
      match k with
      | 0 =>
        simp only [List.getElem?_cons_zero, Option.some.injEq] at hs
        subst hs
        refine ⟨by decide, rfl, rfl, by decide, ?_⟩
        intro fss hfss
        injection ho with ho
        rw [← ho] at hfss
        rw [BitTable.declares_all_unique _ _ _ _ hfss (ex_declares _)]
        decide
      | 1 => simp only [List.getElem?_cons_succ, List.getElem?_cons_zero, Option.some.injEq] at hs; subst hs; cases ho
      | k + 2 => simp at hs)
  refine ⟨N, fun fuel hfuel => ?_⟩
  replace h1 := h1 fuel hfuel [.get c!"ROWS" .none true] (by intro o ho; rw [List.mem_singleton.1 ho]; rfl)
  have hn : columnNames (bitBlock.rowPrefix.getD 0) (.col bitFirst' :: bitRest) = [c!"FLAGS", c!"C"] := by decide
  rw [hn] at h2
  refine ⟨out, h1, h2, ?_⟩
  cases out with
  | nil => cases h2
  | cons q out =>
    refine ⟨q, rfl, ?_⟩
    rw [h4 0 q ⟨c!"FLAGS", 1, 0, 2, 2, bitFirst'.attrs⟩ _ [[(1, 3)], [(5, 4), (9, 4)]] rfl (by rw [show bitBlock.rowPrefix.getD 0 = 0 from rfl, bit_slots]; rfl) rfl (ex_declares _), hf]
    congr 1

/-- what the label says of the image -/
def exImageBlock : Image.ImageBlock where
  sampleBits := 16
  lines := 2
  lineSamples := 2
  linePrefixBytes := some 2

/-- The hypotheses of C120 can be met: the image of the label, which starts at byte 4 and has a line prefix of one pixel. -/
example (params : List Str) (hp : ∀ k, k ∈ params ↔ k ∈ keys exLabel) :
    ∃ A, image ImageFile.exSrc (Meta.run env (Meta.new exLabel params) []) c!"IMAGE" = some (.ok (some A)) ∧ A.shape = [2, 2] ∧
      ImageFile.Spec.Has A [0, 1] (.int (-1)) ∧ ImageFile.Spec.Has A [1, 0] (.int (-32768)) := by
  obtain ⟨A, h1, h2, h3⟩ := C120_image ImageFile.exSrc exLabel params hp c!"IMAGE"
    exPicture (.quantity (.int 4) (.str c!"BYTES")) (some 2) 3 exImageBlock c!"MSB INTEGER" 2 1 0 _
    (.here (pre := [_, _, _, _]) (by show c!"IMAGE" ∉ [c!"RECORD_BYTES", c!"^TABLE", c!"^IMAGE", c!"TABLE"]; decide))
    (.here (pre := [_, _]) (by show c!"^IMAGE" ∉ [c!"RECORD_BYTES", c!"^TABLE"]; decide))
    (.label (by show c!"RECORD_BYTES" ∉ _; decide) (.here (pre := []) (by simp)))
    (.place (.bytes (n := 3))) (by
      refine ⟨?_, Or.inr ⟨2, .here (pre := []) (by simp)⟩⟩
      intro k hk
      refine ⟨none, ?_⟩
      simp only [List.mem_cons, List.not_mem_nil, or_false] at hk
      rcases hk with rfl | rfl | rfl | rfl | rfl | rfl
      · show c!"RECORD_BYTES" ∉ _; decide
      · show c!"BYTES" ∉ _; decide
      · show c!"RECORDS" ∉ _; decide
      · show c!"ROWS" ∉ _; decide
      · show c!"ROW_BYTES" ∉ _; decide
      · show c!"ROW_SUFFIX_BYTES" ∉ _; decide)
    { lines := ⟨[], _, rfl, by decide⟩
      lineSamples := ⟨[_], _, rfl, by decide⟩
      sampleBits := ⟨[_, _], _, rfl, by decide⟩
      linePrefix := ⟨[_, _, _], _, rfl, by decide⟩
      sampleType := ⟨[_, _, _, _], _, rfl, by decide⟩
      bands := by show c!"BANDS" ∉ _; decide
      storage := by show c!"BAND_STORAGE_TYPE" ∉ _; decide
      lineSuffix := by show c!"LINE_SUFFIX_BYTES" ∉ _; decide
      noPlanes := by
        intro e he
        simp only [exPicture, List.mem_cons, List.not_mem_nil, or_false] at he
        rcases he with rfl | rfl | rfl | rfl | rfl <;> decide }
    (by decide) ImageFile.ex_means ⟨by decide, by decide⟩ (by decide) rfl rfl rfl rfl (by decide) 1 2
    (Or.inr (Or.inr ⟨by decide, by decide, rfl, rfl⟩))
  refine ⟨A, h1 [] (by intro o ho; cases ho), h2, h3 0 1 _ (by decide) (by decide) ?_, h3 1 0 _ (by decide) (by decide) ?_⟩
  · exact .signed (by decide) (by decide) (by decide) (by decide) (by decide)
  · exact .signed (by decide) (by decide) (by decide) (by decide) (by decide)

end Verif.Product
