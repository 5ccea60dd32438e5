/-
Concrete tables that meet the hypotheses of the theorems about text tables.
-/
import Verif.Props.AsciiMore

namespace Verif.Ascii
open Verif.Py Verif.Ascii.Spec Verif.Locate Verif.Literal Verif.Table Verif.Table.Spec Verif.Format Verif.Format.Spec Verif.Scaling

/-- a column with numbers in bytes 1 to 4 -/
def exA : Col := { name := c!"A", start := 1, bytes := 4, attrs := { dataType := c!"ASCII_INTEGER" } }
/-- a column with texts in bytes 7 to 11 -/
def exB : Col := { name := c!"B", start := 7, bytes := 5, attrs := { dataType := c!"CHARACTER" } }

/-- a table with these columns, in rows of 14 bytes -/
def exText : Table.Block where
  name := c!"TABLE"
  rowBytes := some 14
  interchange := some c!"ASCII"
  defs := [Entry.toDef (.col exA), Entry.toDef (.col exB)]

theorem exText_slots : slots 0 [.col exA, .col exB] =
    [⟨c!"A", 1, 0, 4, 4, { dataType := c!"ASCII_INTEGER" }⟩, ⟨c!"B", 7, 6, 5, 5, { dataType := c!"CHARACTER" }⟩] := rfl

theorem exText_laid : Laid exText exA [.col exB] where
  regular := by
    refine ⟨⟨⟨by decide, (by intro h; cases h), by intro o h; cases h⟩, ?_⟩, by decide, trivial, by decide⟩
    intro e he
    simp only [List.mem_cons, List.not_mem_nil, or_false] at he
    subst he
    exact ⟨by decide, (by intro h; cases h), by intro o h; cases h⟩
  defs := rfl
  table := by intro t h; cases h
  plain := by decide
  offsets := by decide

theorem exText_text : IsText exText [.col exA, .col exB] := Or.inr (Or.inr (Or.inr rfl))

theorem exText_unscaled : ∀ s ∈ slots (exText.rowPrefix.getD 0) [.col exA, .col exB], Unscaled s.attrs := by
  rw [show exText.rowPrefix.getD 0 = 0 from rfl, exText_slots]
  intro s hs
  simp only [List.mem_cons, List.not_mem_nil, or_false] at hs
  rcases hs with rfl | rfl <;> exact ⟨rfl, rfl⟩

/-! ### fixed width -/

/-- two lines, and one with nothing in it between them -/
def exFixed : Str := c!"  12   moon\r\n \r\n 345  sun\n"

theorem exFixed_lines : HasLines exFixed [c!"  12   moon", c!" ", c!" 345  sun"] := by
  have h : exFixed = c!"  12   moon" ++ c!"\r\n" ++ (c!" " ++ c!"\r\n" ++ (c!" 345  sun" ++ c!"\n" ++ [])) := by decide
  rw [h]
  exact .line (by unfold OneLine; decide) (Or.inr rfl) (.line (by unfold OneLine; decide) (Or.inr rfl)
    (.line (by unfold OneLine; decide) (Or.inl rfl) .nil))

theorem plain_fields {l : Str} (h : ',' ∉ l) (h' : l.head? ≠ some '"') : Fields ',' l [l] :=
  ⟨[l], by simp, .cons (.plain h h') .nil, by simp [join]⟩

/-- C81 for it, after a header line -/
example (P : Pandas) : ∃ out keep, readAscii P exText none (c!"#\n" ++ exFixed) ⟨1, .int 3, true⟩ = .ok (some out) ∧
    keep c!"  12   moon" = true ∧ keep c!" " = false ∧ keep c!" 345  sun" = true ∧
    out.map Prod.fst = [c!"A", c!"B"] ∧
    ∀ (k : Nat) s q, (slots 0 [.col exA, .col exB])[k]? = some s → out[k]? = some q →
      ∃ c, ShownAt P [c!"  12   moon", c!" ", c!" 345  sun"] keep s c ∧ ScaledAs s.attrs c q.2 := by
  have hl : TableLines (c!"#\n" ++ exFixed) ⟨1, .int 3, true⟩ [c!"  12   moon", c!" ", c!" 345  sun"] := by
    have h : HasLines (c!"#\n" ++ exFixed) (c!"#" :: [c!"  12   moon", c!" ", c!" 345  sun"]) := by
      have : c!"#\n" ++ exFixed = c!"#" ++ c!"\n" ++ exFixed := by decide
      rw [this]
      exact .line (by unfold OneLine; decide) (Or.inl rfl) exFixed_lines
    exact TableLines.rows (start := 1) (n := 3) h (by decide)
  have hr : Delimited ',' [c!"  12   moon", c!" ", c!" 345  sun"] [[c!"  12   moon"], [c!" 345  sun"]] := by
    unfold Delimited
    rw [show [c!"  12   moon", c!" ", c!" 345  sun"].filter (fun l => ¬ Blank ',' l) = [c!"  12   moon", c!" 345  sun"] by decide]
    exact .cons (plain_fields (by decide) (by decide)) (.cons (plain_fields (by decide) (by decide)) .nil)
  have hnot : ¬ Fits (slots 0 [.col exA, .col exB]).length [[c!"  12   moon"], [c!" 345  sun"]] := by
    rintro ⟨⟨f, h1, h2⟩, _⟩
    cases h1
    revert h2
    decide
  have hink : ∀ l ∈ [c!"  12   moon", c!" 345  sun"],
      ∃ s ∈ slots (exText.rowPrefix.getD 0) [.col exA, .col exB], ∃ c ∈ charsAt l s, Ink c := by
    intro l hl
    simp only [List.mem_cons, List.not_mem_nil, or_false] at hl
    refine ⟨⟨c!"A", 1, 0, 4, 4, { dataType := c!"ASCII_INTEGER" }⟩, .head _, ?_⟩
    rcases hl with rfl | rfl
    · exact ⟨'1', by decide, by decide, by decide⟩
    · exact ⟨'3', by decide, by decide, by decide⟩
  obtain ⟨out, keep, h1, ⟨h2, h3⟩, h4, h5⟩ := C81_table P exText exA [.col exB] exText_laid exText_text none ',' .default
    (c!"#\n" ++ exFixed) ⟨1, .int 3, true⟩ _ hl _ hr (by simp) (Or.inl hnot) ⟨_, .head _, hink _ (.head _)⟩
    (fun _ _ s hs _ _ => Or.inl (exText_unscaled s hs)) (Or.inr exText_unscaled)
  refine ⟨out, keep, h1, h2 _ (hink _ (.head _)) (by unfold OneLine; decide), h3 _ (by decide),
    h2 _ (hink _ (.tail _ (.head _))) (by unfold OneLine; decide), ?_, h5⟩
  rw [h4]
  decide

/-- the cells of its second column -/
example : charsAt c!"  12   moon" ⟨c!"B", 7, 6, 5, 5, { dataType := c!"CHARACTER" }⟩ = c!" moon" ∧ Trimmed pads c!" moon" c!"moon" := by
  refine ⟨by decide, c!" ", [], by decide, by decide, by decide, ?_, ?_⟩
  · intro c h; cases h; decide
  · intro c h; cases h; decide

/-! ### with separators -/

/-- a table whose fields are also where the label says -/
def exComma : Str := c!"  12,\"moon \"\r\n 345,\"su,n \"\r\n"

theorem exComma_lines : HasLines exComma [c!"  12,\"moon \"", c!" 345,\"su,n \""] := by
  have h : exComma = c!"  12,\"moon \"" ++ c!"\r\n" ++ (c!" 345,\"su,n \"" ++ c!"\r\n" ++ []) := by decide
  rw [h]
  exact .line (by unfold OneLine; decide) (Or.inr rfl) (.line (by unfold OneLine; decide) (Or.inr rfl) .nil)

theorem exComma_standard (u v : Str) (hu : u.length = 4) (hv : v.length = 5) (h1 : u.head? ≠ some '"') (h2 : ',' ∉ u) (h3 : '"' ∉ v) :
    Standard ',' (slots 0 [.col exA, .col exB]) (u ++ c!",\"" ++ v ++ c!"\"") [u, v] := by
  refine ⟨[u, ['"'] ++ v ++ ['"'] ++ []], by simp, .cons (.plain h1 h2) (.cons ?_ .nil), ?_, ?_⟩
  · have := Simple.quoted (sep := ',') (u := v) (more := []) h3 (by simp) (by simp) (by simp)
    simpa using this
  · simp [join, List.append_assoc]
  · rw [exText_slots]
    refine .cons (by decide) (by simp [hu]) (by simp) ?_ (.cons ?_ ?_ ?_ ?_ .nil)
    · intro c hc
      rw [List.drop_of_length_le (by simp [hu])] at hc
      cases hc
    · simp [hu]
    · simp [hu, hv]
    · intro c hc
      have : (([] ++ (['"'] ++ v ++ ['"'] ++ [])).take ((6 : Int).toNat - (0 + u.length + 1))) = ['"'] := by
        rw [hu]; rfl
      rw [List.nil_append] at this
      rw [this] at hc
      cases hc with
      | head => decide
      | tail _ h => cases h
    · intro c hc
      have : (['"'] ++ v ++ ['"'] ++ []).drop ((6 : Int).toNat - (0 + u.length + 1) + 5) = ['"'] := by
        rw [hu]
        show (('"' :: v) ++ ['"'] ++ []).drop 6 = ['"']
        rw [List.append_nil, List.drop_append, List.drop_of_length_le (by simp [hv])]
        simp [hv]
      rw [this] at hc
      cases hc with
      | head => decide
      | tail _ h => cases h

/-- C82_places (and so C82_table) for it, if pandas understands its columns -/
example (P : Pandas) (hm : ∀ cells vs, P.csv cells ≠ .mixed vs) :
    ∃ out, readAscii P exText (some c!"COMMA") exComma ⟨0, .none, false⟩ = .ok (some out) ∧
      out.map Prod.fst = [c!"A", c!"B"] ∧
      ∀ (k : Nat) s q, (slots 0 [.col exA, .col exB])[k]? = some s → out[k]? = some q →
        ∃ cells c, List.Forall₂ (fun l v => ∃ t, Trimmed pads v t ∧ Trimmed pads (charsAt l s) t)
          [c!"  12,\"moon \"", c!" 345,\"su,n \""] cells ∧ Shown P.csv P.missing (Trimmed pads) cells c ∧ ScaledAs s.attrs c q.2 := by
  have hfil : [c!"  12,\"moon \"", c!" 345,\"su,n \""].filter (fun l => ¬ Blank ',' l) = [c!"  12,\"moon \"", c!" 345,\"su,n \""] := by decide
  obtain ⟨out, h1, h2, h3⟩ := C82_places P exText exA [.col exB] exText_laid exText_text (some c!"COMMA") ',' .comma exComma
    ⟨0, .none, false⟩ _ (TableLines.bytesToEnd (start := 0) exComma_lines) [[c!"  12", c!"moon "], [c!" 345", c!"su,n "]] (by
      rw [hfil]
      exact .cons (exComma_standard c!"  12" c!"moon " rfl rfl (by decide) (by decide) (by decide))
        (.cons (exComma_standard c!" 345" c!"su,n " rfl rfl (by decide) (by decide) (by decide)) .nil)) (by simp)
    (fun i _ vs => hm _ vs) (fun k s hs _ _ => Or.inl (exText_unscaled s (List.mem_of_getElem? hs))) (Or.inr exText_unscaled)
  refine ⟨out, h1, ?_, ?_⟩
  · rw [h2]
    decide
  · rw [hfil] at h3
    exact h3

/-- pandas, if it took everything for text -/
def exPandas (P : Pandas) : Pandas := { P with csv := fun _ => .text, fwf := fun _ => .text, missing := fun c => c = [] }

/-- … reads this table so -/
example (P : Pandas) : readAscii (exPandas P) exText none exComma ⟨0, .none, false⟩ =
    .ok (some [(c!"A", .texts [some c!"12", some c!"345"]), (c!"B", .texts [some c!"moon", some c!"su,n"])]) := by
  rfl

/-- … and the other one so -/
example (P : Pandas) : readAscii (exPandas P) exText none exFixed ⟨0, .none, false⟩ =
    .ok (some [(c!"A", .texts [some c!"12", some c!"345"]), (c!"B", .texts [some c!"moon", some c!"sun"])]) := by
  rfl

/-- a SPREADSHEET with a missing and a short field: C82_spreadsheet applies -/
example (P : Pandas) : readSpreadsheet (exPandas P) true [{ name := c!"A", items := some 2 }, { name := c!"B" }] (some c!"SEMICOLON")
    c!"1;;\"a;\"\"b\"\"\"\n\n4\n" ⟨0, .none, false⟩ =
    .ok [(c!"A_0", .texts [some c!"1", some c!"4"]), (c!"A_1", .texts [none, none]), (c!"B", .texts [some c!"a;\"b", none])] := by
  rfl

example : Delimited ';' [c!"1;;\"a;\"\"b\"\"\"", [], c!"4"] [[c!"1", [], c!"a;\"b\""], [c!"4"]] := by
  unfold Delimited
  rw [show [c!"1;;\"a;\"\"b\"\"\"", [], c!"4"].filter (fun l => ¬ Blank ';' l) = [c!"1;;\"a;\"\"b\"\"\"", c!"4"] by decide]
  refine .cons ⟨[c!"1", [], ['"'] ++ doubled c!"a;\"b\"" ++ ['"'] ++ []], by simp, ?_, by decide⟩
    (.cons ⟨[c!"4"], by simp, .cons (.plain (by decide) (by decide)) .nil, by decide⟩ .nil)
  refine .cons (.plain (by decide) (by decide)) (.cons (.plain (by decide) (by decide)) (.cons ?_ .nil))
  have := Written.quoted (sep := ';') (v := c!"a;\"b\"") (more := []) (by decide) (by decide)
  simpa using this

/-- a column with 12 and -4 can be scaled by 2 and shifted by 100 -/
example : CanScale { scale := some (.int 2), offset := some (.int 100) } (.values (.ints ⟨true, 64⟩ [12, -4])) := by
  have hr : ∀ n : Int, |n| < 2 ^ 53 → Float.Rep Float.double n := by
    intro n hn
    exact ⟨n, 0, hn, by decide, by decide, by simp⟩
  have h2 : factor { scale := some (.int 2), offset := some (.int 100) } = 2 := by simp [factor, Num.val]
  have h3 : shift { scale := some (.int 2), offset := some (.int 100) } = 100 := by simp [shift, Num.val]
  refine Or.inr ⟨by rw [h2]; norm_num, _, [.int 12, .int (-4)], rfl, rfl, Or.inl ⟨⟨_, rfl⟩, ?_⟩⟩
  have hxs : ∀ x, (∃ v ∈ [Table.Spec.Value.int 12, .int (-4)], Amount v x) → x = 12 ∨ x = -4 := by
    rintro x ⟨v, hv, ha⟩
    simp only [List.mem_cons, List.not_mem_nil, or_false] at hv
    rcases hv with rfl | rfl <;> cases ha <;> norm_num
  refine .int (t := ⟨true, 64⟩) (Or.inl ⟨rfl, rfl⟩) (by decide) ?_ ?_ ?_ ?_ ?_
  · rw [h2]; exact_mod_cast hr 2 (by decide)
  · rw [h3]; exact_mod_cast hr 100 (by decide)
  · intro x hx
    rcases hxs x hx with rfl | rfl
    · rw [ExactIn, h2, h3]
      refine ⟨by exact_mod_cast hr 12 (by decide), ?_, ?_⟩
      · norm_num; exact_mod_cast hr 24 (by decide)
      · norm_num; exact_mod_cast hr 124 (by decide)
    · rw [ExactIn, h2, h3]
      refine ⟨by exact_mod_cast hr (-4) (by decide), ?_, ?_⟩
      · norm_num; exact_mod_cast hr (-8) (by decide)
      · norm_num; exact_mod_cast hr 92 (by decide)
  · intro i hi
    cases hi
    rw [h2]
    refine ⟨by norm_num [InRange, NumPy.lo, NumPy.hi], fun x hx => ?_⟩
    rcases hxs x hx with rfl | rfl <;> norm_num [InRange, NumPy.lo, NumPy.hi]
  · intro i hi
    cases hi
    rw [h2, h3]
    refine ⟨by norm_num [InRange, NumPy.lo, NumPy.hi], fun x hx => ?_⟩
    rcases hxs x hx with rfl | rfl <;> norm_num [InRange, NumPy.lo, NumPy.hi]

/-! ### limits -/

/-- START_BYTEs may be wrong (C83_places_ignored) -/
example (P : Pandas) : readAscii (exPandas P)
    { exText with defs := [Entry.toDef (.col { exA with start := 3 }), Entry.toDef (.col { exB with start := 8 })] } none exComma
      ⟨0, .none, false⟩ = readAscii (exPandas P) exText none exComma ⟨0, .none, false⟩ := by rfl

example : c!"COMMA " ∉ [c!"COMMA", c!"VERTICAL_BAR", c!"SEMICOLON", c!"TAB"] := by decide

example : TableLines c!"#\n \n\n" ⟨1, .none, true⟩ [c!" ", []] := by
  have : HasLines c!"#\n \n\n" [c!"#", c!" ", []] := by
    have h : c!"#\n \n\n" = c!"#" ++ c!"\n" ++ (c!" " ++ c!"\n" ++ ([] ++ c!"\n" ++ [])) := by decide
    rw [h]
    exact .line (by unfold OneLine; decide) (Or.inl rfl) (.line (by unfold OneLine; decide) (Or.inl rfl)
      (.line (by unfold OneLine; decide) (Or.inl rfl) .nil))
  exact TableLines.rowsToEnd (start := 1) this (by decide)

/-- C83_spreadsheet: a line with too many fields -/
example (P : Pandas) : readSpreadsheet P true [{ name := c!"A" }, { name := c!"B" }] none c!"1,2\n3,4,5\n" ⟨0, .none, false⟩ =
    .error .keyError := by rfl

/-- C83_reserved: two columns RESERVED -/
example (P : Pandas) : readSpreadsheet P false [{ name := c!"RESERVED", items := some 2 }] none c!"1,2\n" ⟨0, .none, false⟩ =
    .error .keyError := by rfl

/-- C83_placeholder: a column MY_PLACEHOLDER -/
example (P : Pandas) : readSpreadsheet (exPandas P) true [{ name := c!"A" }, { name := c!"MY_PLACEHOLDER" }] none c!"1\n3\n"
    ⟨0, .none, false⟩ = .error .valueError := by rfl

end Verif.Ascii
