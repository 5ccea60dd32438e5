/-
Examples for C121.
-/
import Verif.Props.ProductText
import Verif.Props.ProductExamples
import Verif.Props.AsciiExamples

namespace Verif.Product
open Verif.Py Verif.Pvl Verif.Pvl.Spec Verif.Literal Verif.Format Verif.Format.Spec Verif.Meta.Spec Verif.Product.Spec
open Verif.Table Verif.Table.Spec Verif.Ascii Verif.Ascii.Spec

/-- the block of a text table -/
def exTextKids : MDict Val :=
  [(c!"INTERCHANGE_FORMAT", .leaf (.str c!"ASCII")), (c!"ROW_BYTES", .leaf (.int 14)),
   (c!"COLUMN", .node [(c!"NAME", .leaf (.str c!"A")), (c!"DATA_TYPE", .leaf (.str c!"ASCII_INTEGER")), (c!"START_BYTE", .leaf (.int 1)), (c!"BYTES", .leaf (.int 4))]),
   (c!"COLUMN", .node [(c!"NAME", .leaf (.str c!"B")), (c!"DATA_TYPE", .leaf (.str c!"CHARACTER")), (c!"START_BYTE", .leaf (.int 7)), (c!"BYTES", .leaf (.int 5))])]

/-- the block of a spreadsheet -/
def exSheetKids : MDict Val :=
  [(c!"ROWS", .leaf (.int 2)), (c!"FIELD_DELIMITER", .leaf (.str c!"SEMICOLON")),
   (c!"FIELD", .node [(c!"NAME", .leaf (.str c!"A")), (c!"DATA_TYPE", .leaf (.str c!"ASCII_INTEGER")), (c!"ITEMS", .leaf (.int 2))]),
   (c!"FIELD", .node [(c!"NAME", .leaf (.str c!"B")), (c!"DATA_TYPE", .leaf (.str c!"CHARACTER"))])]

/-- the label of a text table, which starts with record 2 -/
def exTextLabel : MDict Val :=
  [(c!"RECORD_BYTES", .leaf (.int 2)), (c!"^TABLE", .leaf (.int 2)), (c!"TABLE", .node exTextKids)]

/-- the label of a spreadsheet, which has a file of its own -/
def exSheetLabel : MDict Val :=
  [(c!"RECORD_TYPE", .leaf (.str c!"STREAM")), (c!"^SPREADSHEET", .leaf (.str c!"X.CSV")), (c!"SPREADSHEET", .node exSheetKids)]

theorem exText_says (R : Float.Rounding Float.double) : TableSays R (fun _ => none) exTextKids Ascii.exText [.col exA, .col exB] where
  tableName := by show c!"NAME" ∉ _; decide
  bytes := by show c!"BYTES" ∉ _; decide
  rows := by show c!"ROWS" ∉ _; decide
  rowBytes := ⟨[(c!"INTERCHANGE_FORMAT", .leaf (.str c!"ASCII"))], _, rfl, by decide⟩
  rowPrefix := by show c!"ROW_PREFIX_BYTES" ∉ _; decide
  rowSuffix := by show c!"ROW_SUFFIX_BYTES" ∉ _; decide
  interchange := ⟨[], _, rfl, by decide⟩
  once := by show c!"REPETITIONS" ∉ _; decide
  columns := by
    refine .skip (by decide) (not_format rfl) (.skip (by decide) (not_format rfl)
      (.column (by decide) (.plain (by show c!"^STRUCTURE" ∉ _; decide)) ?_
      (.column (by decide) (.plain (by show c!"^STRUCTURE" ∉ _; decide)) ?_ .nil)))
    · exact {
        name := ⟨[], _, rfl, by decide⟩
        start := ⟨[(c!"NAME", .leaf (.str c!"A")), (c!"DATA_TYPE", .leaf (.str c!"ASCII_INTEGER"))], _, rfl, by decide⟩
        bytes := ⟨[(c!"NAME", .leaf (.str c!"A")), (c!"DATA_TYPE", .leaf (.str c!"ASCII_INTEGER")), (c!"START_BYTE", .leaf (.int 1))], _, rfl, by decide⟩
        items := by show c!"ITEMS" ∉ _; decide
        itemBytes := by show c!"ITEM_BYTES" ∉ _; decide
        itemOffset := by show c!"ITEM_OFFSET" ∉ _; decide
        dataType := ⟨[(c!"NAME", .leaf (.str c!"A"))], _, rfl, by decide⟩
        scale := by show c!"SCALING_FACTOR" ∉ _; decide
        offset := by show c!"OFFSET" ∉ _; decide
        bits := by show c!"BIT_COLUMN" ∉ _; decide
        noElements := by show c!"BIT_ELEMENT" ∉ _; decide }
    · exact {
        name := ⟨[], _, rfl, by decide⟩
        start := ⟨[(c!"NAME", .leaf (.str c!"B")), (c!"DATA_TYPE", .leaf (.str c!"CHARACTER"))], _, rfl, by decide⟩
        bytes := ⟨[(c!"NAME", .leaf (.str c!"B")), (c!"DATA_TYPE", .leaf (.str c!"CHARACTER")), (c!"START_BYTE", .leaf (.int 7))], _, rfl, by decide⟩
        items := by show c!"ITEMS" ∉ _; decide
        itemBytes := by show c!"ITEM_BYTES" ∉ _; decide
        itemOffset := by show c!"ITEM_OFFSET" ∉ _; decide
        dataType := ⟨[(c!"NAME", .leaf (.str c!"B"))], _, rfl, by decide⟩
        scale := by show c!"SCALING_FACTOR" ∉ _; decide
        offset := by show c!"OFFSET" ∉ _; decide
        bits := by show c!"BIT_COLUMN" ∉ _; decide
        noElements := by show c!"BIT_ELEMENT" ∉ _; decide }
  defs := rfl

/-- The hypotheses of C121_fixed can be met: the table of this label, after a line with two characters. -/
example (P : Pandas) (ids : BitTable.Ids) (params : List Str) (hp : ∀ k, k ∈ params ↔ k ∈ keys exTextLabel) :
    ∃ N, ∀ fuel ≥ N, ∃ out keep, textTable P ids (fun _ => none) fuel (c!"#\n" ++ exFixed) (Meta.run env (Meta.new exTextLabel params) []) c!"TABLE" =
        some (.ok (some out)) ∧ Keeps (slots 0 [.col exA, .col exB]) keep ∧ out.map Prod.fst = [c!"A", c!"B"] ∧
      ∀ (k : Nat) s q, (slots 0 [.col exA, .col exB])[k]? = some s → out[k]? = some q →
        ∃ c, ShownAt P [c!"  12   moon", c!" ", c!" 345  sun"] keep s c ∧ ScaledAs s.attrs c q.2 := by
  have hl : TableLines (c!"#\n" ++ exFixed) ⟨(2 : Nat), .none, false⟩ [c!"  12   moon", c!" ", c!" 345  sun"] :=
    TableLines.bytesToEnd (start := 2) exFixed_lines
  have hr : Delimited ',' [c!"  12   moon", c!" ", c!" 345  sun"] [[c!"  12   moon"], [c!" 345  sun"]] := by
    unfold Delimited
    rw [show [c!"  12   moon", c!" ", c!" 345  sun"].filter (fun l => ¬ Blank ',' l) = [c!"  12   moon", c!" 345  sun"] by decide]
    exact .cons (plain_fields (by decide) (by decide)) (.cons (plain_fields (by decide) (by decide)) .nil)
  have hnot : ¬ Ascii.Spec.Fits (slots 0 [.col exA, .col exB]).length [[c!"  12   moon"], [c!" 345  sun"]] := by
    rintro ⟨⟨f, h1, h2⟩, _⟩
    cases h1
    revert h2
    decide
  have hink : ∃ l ∈ [c!"  12   moon", c!" ", c!" 345  sun"],
      ∃ s ∈ slots (Ascii.exText.rowPrefix.getD 0) [.col exA, .col exB], ∃ c ∈ charsAt l s, Ink c :=
    ⟨_, .head _, ⟨c!"A", 1, 0, 4, 4, { dataType := c!"ASCII_INTEGER" }⟩, .head _, '1', by decide, by decide, by decide⟩
  obtain ⟨out, keep, N, h1, h2⟩ := C121_fixed P ids (fun _ => none) (c!"#\n" ++ exFixed) exTextLabel params hp exTextKids (.int 2) (some 2) 2
    ⟨(2 : Nat), .none, false⟩ Ascii.exText exA exA [.col exB] [.col exB] none
    (.here (pre := [_, _]) (by show c!"TABLE" ∉ [c!"RECORD_BYTES", c!"^TABLE"]; decide))
    (.here (pre := [_]) (by show c!"^TABLE" ∉ [c!"RECORD_BYTES"]; decide))
    (.label (by show c!"RECORD_BYTES" ∉ _; decide) (.here (pre := []) (by simp)))
    (.place (.record (n := 1) rfl)) (by
        refine ⟨?_, Or.inr ⟨2, .here (pre := []) (by simp)⟩⟩
        intro k hk
        simp only [List.mem_cons, List.not_mem_nil, or_false] at hk
        rcases hk with rfl | rfl | rfl | rfl | rfl | rfl
        · exact ⟨none, by show c!"RECORD_BYTES" ∉ _; decide⟩
        · exact ⟨none, by show c!"BYTES" ∉ _; decide⟩
        · exact ⟨none, by show c!"RECORDS" ∉ _; decide⟩
        · exact ⟨none, by show c!"ROWS" ∉ _; decide⟩
        · exact ⟨some 14, [(c!"INTERCHANGE_FORMAT", .leaf (.str c!"ASCII"))], _, rfl, by decide⟩
        · exact ⟨none, by show c!"ROW_SUFFIX_BYTES" ∉ _; decide⟩)
    (.bytes (n := none) (Or.inl (fun h => h.noRecords (by decide))) (by decide)
      (.rest (by show c!"BYTES" ∉ _; decide) (.none (by show c!"RECORDS" ∉ _; decide) (by show c!"ROWS" ∉ _; decide))))
    (exText_says P.R) (.cons (.col ⟨_, .plain rfl, rfl⟩) (.cons (.col ⟨_, .plain rfl, rfl⟩) .nil))
    (by show c!"FIELD_DELIMITER" ∉ _; decide) (by decide) Ascii.exText_laid Ascii.exText_text ',' .default _ hl _ hr (by simp) (Or.inl hnot) hink
    (fun _ _ s hs _ _ => Or.inl (Ascii.exText_unscaled s hs)) (Or.inr Ascii.exText_unscaled)
  exact ⟨N, fun fuel hfuel => ⟨out, keep, h1 fuel hfuel [] (by intro o ho; cases ho), h2⟩⟩

/-- The hypotheses of C121_spreadsheet can be met: the spreadsheet of this label, which has three lines, of which it takes two. -/
example (P : Pandas) (hm : ∀ cells vs, P.csv cells ≠ .mixed vs) (params : List Str) (hp : ∀ k, k ∈ params ↔ k ∈ keys exSheetLabel) :
    ∃ N, ∀ fuel ≥ N, ∃ out, spreadsheet P (fun _ => none) fuel c!"1;;ab\n4;5;c\n7;8;9\n" (Meta.run env (Meta.new exSheetLabel params) []) c!"SPREADSHEET" =
        some (.ok out) ∧ out.map Prod.fst = [c!"A_0", c!"A_1", c!"B"] ∧
      ∀ (k : Nat) q, out[k]? = some q →
        ∃ c, Shown P.csv P.missing (Trimmed pads) (Ascii.Spec.field [[c!"1", [], c!"ab"], [c!"4", c!"5", c!"c"]] k) c ∧ ScaledAs {} c q.2 := by
  have hf : ∀ l w : Str, '"' ∉ l → ∀ ws : List Str, (∀ w ∈ ws, ';' ∉ w ∧ w.head? ≠ some '"') → ws ≠ [] → l = join [';'] ws → Fields ';' l ws := by
    intro l _ _ ws h hne hl
    refine ⟨ws, hne, ?_, hl⟩
    clear hl hne
    induction ws with
    | nil => exact .nil
    | cons w ws ih =>
      exact .cons (.plain (h w (by simp)).1 (h w (by simp)).2) (ih (fun w hw => h w (List.mem_cons_of_mem _ hw)))
  have hlines : HasLines c!"1;;ab\n4;5;c\n7;8;9\n" [c!"1;;ab", c!"4;5;c", c!"7;8;9"] := by
    have h : c!"1;;ab\n4;5;c\n7;8;9\n" = c!"1;;ab" ++ c!"\n" ++ (c!"4;5;c" ++ c!"\n" ++ (c!"7;8;9" ++ c!"\n" ++ [])) := by decide
    rw [h]
    exact .line (by unfold OneLine; decide) (Or.inl rfl) (.line (by unfold OneLine; decide) (Or.inl rfl)
      (.line (by unfold OneLine; decide) (Or.inl rfl) .nil))
  have hr : Delimited ';' [c!"1;;ab", c!"4;5;c"] [[c!"1", [], c!"ab"], [c!"4", c!"5", c!"c"]] := by
    unfold Delimited
    rw [show [c!"1;;ab", c!"4;5;c"].filter (fun l => ¬ Blank ';' l) = [c!"1;;ab", c!"4;5;c"] by decide]
    exact .cons (hf _ [] (by decide) _ (by decide) (by decide) (by decide)) (.cons (hf _ [] (by decide) _ (by decide) (by decide) (by decide)) .nil)
  have hattrs : fieldAttrs [{ name := c!"A", items := some 2 }, { name := c!"B" }] = [{}, {}, {}] := rfl
  obtain ⟨out, N, h1, h2⟩ := C121_spreadsheet P (fun _ => none) c!"1;;ab\n4;5;c\n7;8;9\n" exSheetLabel params hp c!"SPREADSHEET" exSheetKids
    (.str c!"X.CSV") none 0 ⟨0, .int (2 : Nat), true⟩ false [{ name := c!"A", items := some 2 }, { name := c!"B" }] (some c!"SEMICOLON")
    (.here (pre := [_, _]) (by show c!"SPREADSHEET" ∉ [c!"RECORD_TYPE", c!"^SPREADSHEET"]; decide))
    (.here (pre := [_]) (by show c!"^SPREADSHEET" ∉ [c!"RECORD_TYPE"]; decide))
    (.none (by show c!"RECORD_BYTES" ∉ _; decide) (by decide))
    (.place .file) (by
        refine ⟨?_, Or.inl (by decide)⟩
        intro k hk
        simp only [List.mem_cons, List.not_mem_nil, or_false] at hk
        rcases hk with rfl | rfl | rfl | rfl | rfl | rfl
        · exact ⟨none, by show c!"RECORD_BYTES" ∉ _; decide⟩
        · exact ⟨none, by show c!"BYTES" ∉ _; decide⟩
        · exact ⟨none, by show c!"RECORDS" ∉ _; decide⟩
        · exact ⟨some 2, [], _, rfl, by decide⟩
        · exact ⟨none, by show c!"ROW_BYTES" ∉ _; decide⟩
        · exact ⟨none, by show c!"ROW_SUFFIX_BYTES" ∉ _; decide⟩)
    (.lines (n := some 2) ⟨.here (pre := []) (by simp), by decide, by show c!"BYTES" ∉ _; decide, Or.inr (by decide)⟩ ⟨c!"X.CSV", Or.inl ⟨rfl, by decide⟩⟩
      (by decide) (.rows (by show c!"RECORDS" ∉ _; decide) ⟨[], _, rfl, by decide⟩))
    (by
      refine .skip (by decide) (not_format rfl) (.skip (by decide) (not_format rfl)
        (.field (by decide) (.plain (by show c!"^STRUCTURE" ∉ _; decide)) ?_
        (.field (by decide) (.plain (by show c!"^STRUCTURE" ∉ _; decide)) ?_ .nil)))
      · exact {
          name := ⟨[], _, rfl, by decide⟩
          bytes := by show c!"BYTES" ∉ _; decide
          items := ⟨[(c!"NAME", .leaf (.str c!"A")), (c!"DATA_TYPE", .leaf (.str c!"ASCII_INTEGER"))], _, rfl, by decide⟩
          dataType := ⟨_, [(c!"NAME", .leaf (.str c!"A"))], _, rfl, by decide⟩
          scale := by show c!"SCALING_FACTOR" ∉ _; decide
          offset := by show c!"OFFSET" ∉ _; decide
          noStart := by show c!"START_BYTE" ∉ _; decide
          noBits := by show c!"BIT_COLUMN" ∉ _; decide
          noElements := by show c!"BIT_ELEMENT" ∉ _; decide }
      · exact {
          name := ⟨[], _, rfl, by decide⟩
          bytes := by show c!"BYTES" ∉ _; decide
          items := by show c!"ITEMS" ∉ _; decide
          dataType := ⟨_, [(c!"NAME", .leaf (.str c!"B"))], _, rfl, by decide⟩
          scale := by show c!"SCALING_FACTOR" ∉ _; decide
          offset := by show c!"OFFSET" ∉ _; decide
          noStart := by show c!"START_BYTE" ∉ _; decide
          noBits := by show c!"BIT_COLUMN" ∉ _; decide
          noElements := by show c!"BIT_ELEMENT" ∉ _; decide }) (by simp)
    ⟨[(c!"ROWS", .leaf (.int 2))], _, rfl, by decide⟩ (by decide) (by decide) (by decide) ';' .semicolon [c!"1;;ab", c!"4;5;c"]
    (TableLines.rows (start := 0) (n := 2) hlines (by decide)) _ hr (by unfold Ascii.Spec.Fits; decide) (fun i _ vs => hm _ vs)
    (by intro k a ha c _; rw [hattrs] at ha; refine Or.inl ?_; have := List.mem_of_getElem? ha; simp at this; subst this; exact ⟨rfl, rfl⟩)
    (Or.inl (by decide))
  refine ⟨N, fun fuel hfuel => ?_⟩
  obtain ⟨h2, h3⟩ := h2
  replace h1 := h1 fuel hfuel [] (by intro o ho; cases ho)
  have hn : fieldNames [{ name := c!"A", items := some 2 }, { name := c!"B" }] = [c!"A_0", c!"A_1", c!"B"] := by decide
  rw [hn] at h2
  refine ⟨out, h1, h2, ?_⟩
  intro k q hq
  have hk : k < 3 := by
    have := congrArg List.length h2
    rw [List.length_map] at this
    have := (List.getElem?_eq_some_iff.1 hq).1
    simp only [List.length_cons, List.length_nil] at *
    omega
  refine h3 k {} q ?_ hq
  rw [hattrs]
  match k, hk with
  | 0, _ => rfl
  | 1, _ => rfl
  | 2, _ => rfl

end Verif.Product
