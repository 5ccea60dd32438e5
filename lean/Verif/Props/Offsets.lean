/-
C13: byte offsets of table columns; C45: tables for which they are wrong.
-/
import Verif.Lemmas.Offsets
import Mathlib.Tactic.Linarith

namespace Verif.Format
open Verif.Py Verif.Format.Spec

/-- the columns of an entry, with the places of their objects -/
def runsOf (T : Info) (p : Int) : Entry → List Run
  | .col c => [(T, p, c)]
  | .cont n s b r cs => (List.range (copies r)).flatMap (fun (i : Nat) =>
      cs.map (fun c => (⟨some n, r.getD 1, some b⟩, p + (s - 1) + i * b, c)))

theorem mid_runs (T : Info) (p : Int) (e : Entry) : mid T p e = (runsOf T p e).flatMap Run.rows := by
  cases e with
  | col c => simp [mid, runsOf, Run.rows]
  | cont n s b r cs =>
    simp only [mid, runsOf, List.flatMap_assoc, List.flatMap_map, Run.rows]

theorem layout_runs (T : Info) (p : Int) (e : Entry) :
    e.layout p = ((runsOf T p e).flatMap Run.fin).map (fun r => (r.fld.name, r.sb, width r.fld)) := by
  have hc : ∀ (info : Info) (base : Int) (c : Col), c.layout base =
      (Run.fin (info, base, c)).map (fun r => (r.fld.name, r.sb, width r.fld)) := by
    intro info base c
    simp [Col.layout, Run.fin, fldOf, width, Col.size]
  cases e with
  | col c => simp [Entry.layout, runsOf, hc T]
  | cont n s b r cs =>
    simp only [Entry.layout, runsOf, List.flatMap_assoc, List.flatMap_map, List.map_flatMap]
    congr 1
    funext i
    congr 1
    funext c
    exact hc _ _ _

theorem itemStarts_runs (T : Info) (p : Int) (e : Entry) :
    ((runsOf T p e).filter Run.item).map (fun r => r.2.1 + (r.2.2.start - 1)) = e.itemStarts.map (p + ·) := by
  have hc : ∀ (info : Info) (base : Int) (c : Col),
      (([(info, p + base, c)] : List Run).filter Run.item).map (fun r => r.2.1 + (r.2.2.start - 1)) =
        (c.itemStart base).map (p + ·) := by
    intro info base c
    simp only [Col.itemStart, Run.item, List.filter]
    cases c.itemBytes.isSome <;> simp
    omega
  have hcs : ∀ (info : Info) (base : Int) (cs : List Col),
      ((cs.map (fun c => ((info, p + base, c) : Run))).filter Run.item).map (fun r => r.2.1 + (r.2.2.start - 1)) =
        (cs.flatMap (Col.itemStart base)).map (p + ·) := by
    intro info base cs
    induction cs with
    | nil => rfl
    | cons c cs ih =>
      rw [List.map_cons, ← List.singleton_append, List.filter_append, List.map_append, hc, ih, List.flatMap_cons,
        List.map_append]
  cases e with
  | col c =>
    have := hc T 0 c
    simpa [runsOf, Entry.itemStarts] using this
  | cont n s b r cs =>
    simp only [runsOf, Entry.itemStarts, List.filter_flatMap, List.map_flatMap]
    congr 1
    funext i
    have := hcs ⟨some n, r.getD 1, some b⟩ (s - 1 + i * b) cs
    rw [← List.map_flatMap]
    rw [← this]
    simp only [Int.add_assoc]

/-- `compute_offsets` before unused bytes at the end of a row are looked at -/
def preRows (fields : List Fld) (rowPrefix : Option Int) : Except PyErr (List Row) :=
  let rows := initialRows fields rowPrefix
  let blocks : Except PyErr (List Row) := match blockNames rows with
    | [] => .ok rows
    | b :: bs => offsetBlocks rowPrefix b bs rows
  match blocks with
  | .error e => .error e
  | .ok rows => applyItems rows

theorem computeOffsets_pre (fields : List Fld) (rowPrefix rowBytes rowSuffix : Option Int) :
    computeOffsets fields rowPrefix rowBytes rowSuffix = (match preRows fields rowPrefix with
      | .error e => .error e
      | .ok rows => padRow rows rowBytes rowSuffix) := by
  unfold computeOffsets preRows
  simp only
  cases blockNames (initialRows fields rowPrefix) with
  | nil => rfl
  | cons b bs =>
    simp only
    cases offsetBlocks rowPrefix b bs (initialRows fields rowPrefix) <;> rfl

/-- the rows of a regular table after the item offsets -/
theorem preRows_regular (table : Option Str) (rowBytes' : Option Nat) (first : Col) (rest : List Entry)
    (h : Regular table first rest) (rowPrefix : Option Int) :
    preRows (readFormatBlock table none rowBytes' ((Entry.col first :: rest).map Entry.toDef)) rowPrefix =
    .ok (((Entry.col first :: rest).flatMap (runsOf ⟨table, 1, rowBytes'⟩ (rowPrefix.getD 0))).flatMap Run.fin) := by
  obtain ⟨⟨hf, hok⟩, hnames, hadj, hsort⟩ := h
  have hflat : ∀ d ∈ (Entry.col first :: rest).map Entry.toDef, Flat d := by
    intro d hd
    obtain ⟨e, he, rfl⟩ := List.mem_map.1 hd
    cases e with
    | col c => trivial
    | cont n s b r cs =>
      intro c hc
      obtain ⟨c', _, rfl⟩ := List.mem_map.1 hc
      exact Or.inl ⟨_, _, _, _, _, _, _, rfl⟩
  rw [C26_flat_tables _ _ _ _ hflat]
  simp only [Option.getD_none]
  generalize hT : (⟨table, 1, rowBytes'⟩ : Info) = T
  have hTn : T.name = table := by rw [← hT]
  have hTr : T.reps ≤ 1 := by rw [← hT]
  unfold preRows
  simp only
  rw [init_fields]
  have hall : ∀ e ∈ Entry.col first :: rest, e.Ok := by
    intro e he
    rcases List.mem_cons.1 he with rfl | h
    · exact hf
    · exact hok e h
  -- block names
  have hbn : blockNames ((Entry.col first :: rest).flatMap (init T (rowPrefix.getD 0))) =
      table :: (contNames rest).map some := by
    unfold blockNames
    rw [List.filter_eq_self.2 (by
      intro row hrow
      obtain ⟨e, he, hr⟩ := List.mem_flatMap.1 hrow
      simpa using mid_name T _ e (hall e he) row hr)]
    -- uniq of the names of the entries
    have huniq_mem : ∀ (l : List (Option Str)) x, x ∈ uniq l ↔ x ∈ l := by
      intro l x
      induction l with
      | nil => rfl
      | cons y ys ih =>
        simp only [uniq, List.mem_cons, List.mem_filter, ih]
        by_cases hxy : x = y
        · simp [hxy]
        · simp [hxy]
    have hrep : ∀ (n : Nat) (x : Option Str) (l : List (Option Str)), 0 < n →
        uniq (List.replicate n x ++ l) = x :: (uniq l).filter (· ≠ x) := by
      intro n x l hn
      induction n with
      | zero => omega
      | succ n ih =>
        cases n with
        | zero => rfl
        | succ n =>
          rw [List.replicate_succ, List.cons_append, uniq, ih (by omega)]
          simp
    have hblock : ∀ e, e.Ok → ∃ n, 0 < n ∧ (init T (rowPrefix.getD 0) e).map (·.fld.blockName) =
        List.replicate n (blockOf T e) := by
      intro e he
      refine ⟨(init T (rowPrefix.getD 0) e).length, ?_, ?_⟩
      · cases e with
        | col c => exact List.length_pos_iff.2 (colRows_ne _ _ _)
        | cont n s b r cs =>
          obtain ⟨c, cs', rfl⟩ := List.exists_cons_of_ne_nil he.2.1
          have := copies_pos r
          obtain ⟨m, hm⟩ : ∃ m, copies r = m + 1 := ⟨copies r - 1, by omega⟩
          have := List.length_pos_iff.2 (colRows_ne ⟨some n, r.getD 1, some b⟩ (rowPrefix.getD 0) c)
          simp only [init, hm, List.replicate_succ, List.flatten_cons, List.flatMap_cons, List.length_append]
          omega
      · rw [List.eq_replicate_iff]
        refine ⟨by simp, ?_⟩
        intro x hx
        obtain ⟨row, hrow, rfl⟩ := List.mem_map.1 hx
        exact init_block T _ e row hrow
    have hrest : ∀ es : List Entry, (∀ e ∈ es, e.Ok) → (contNames es).Nodup → (∀ n ∈ contNames es, table ≠ some n) →
        (uniq ((es.flatMap (init T (rowPrefix.getD 0))).map (·.fld.blockName))).filter (· ≠ table) =
          (contNames es).map some := by
      intro es
      induction es with
      | nil => intro _ _ _; rfl
      | cons e es ih =>
        intro hoks hnd hnt
        obtain ⟨n, hn, hb⟩ := hblock e (hoks e (by simp))
        rw [List.flatMap_cons, List.map_append, hb, hrep _ _ _ hn]
        have hoks' := fun e' h' => hoks e' (List.mem_cons_of_mem _ h')
        cases e with
        | col c =>
          simp only [blockOf, hTn]
          rw [List.filter_cons_of_neg (by simp), List.filter_filter]
          have := ih hoks' hnd hnt
          simpa [contNames] using this
        | cont m s b r cs =>
          simp only [contNames, List.nodup_cons] at hnd hnt
          have hnt1 := hnt m (by simp)
          have hnt2 := fun n hn => hnt n (List.mem_cons_of_mem _ hn)
          simp only [blockOf, contNames, List.map_cons]
          rw [List.filter_cons_of_pos (by simpa using fun h => hnt1 h.symm)]
          congr 1
          have aux : ∀ (L : List (Option Str)) (q : Option Str),
              L.filter (· ≠ table) = (contNames es).map some → q ∉ (contNames es).map some →
              (L.filter (· ≠ q)).filter (· ≠ table) = (contNames es).map some := by
            intro L q h1 h2
            have hcomm : (L.filter (· ≠ q)).filter (· ≠ table) = (L.filter (· ≠ table)).filter (· ≠ q) := by
              simp only [List.filter_filter, Bool.and_comm]
            rw [hcomm, h1, List.filter_eq_self]
            intro a ha
            have : a ≠ q := by rintro rfl; exact h2 ha
            simpa using this
          exact aux _ _ (ih hoks' hnd.2 hnt2) (by
            intro hm
            obtain ⟨x, hx, he⟩ := List.mem_map.1 hm
            rw [Option.some.inj he] at hx
            exact hnd.1 hx)
    obtain ⟨n, hn, hb⟩ := hblock (.col first) hf
    rw [List.flatMap_cons, List.map_append, hb, hrep _ _ _ hn]
    simp only [blockOf, hTn]
    rw [hrest rest hok hnames.1 hnames.2]
  rw [hbn]
  simp only
  have hloop := offsetBlocks_loop T rowPrefix table hTr rest (.col first)
    (mid T (rowPrefix.getD 0) (.col first)) hok hnames.1 hadj
    (fun n hn => by rw [hTn]; exact hnames.2 n hn)
    (fun _ => mid_last T (rowPrefix.getD 0) (.col first) hTr hf rfl)
    (fun r hr n hn => by
      rw [mid_block T _ _ r hr]
      simp only [blockOf]
      rw [hTn]; exact hnames.2 n hn)
  have e1 : (Entry.col first :: rest).flatMap (init T (rowPrefix.getD 0)) =
      mid T (rowPrefix.getD 0) (.col first) ++ rest.flatMap (init T (rowPrefix.getD 0)) := by
    rw [List.flatMap_cons]; rfl
  rw [e1, hloop]
  simp only
  have e2 : mid T (rowPrefix.getD 0) (.col first) ++ rest.flatMap (mid T (rowPrefix.getD 0)) =
      ((Entry.col first :: rest).flatMap (runsOf T (rowPrefix.getD 0))).flatMap Run.rows := by
    rw [List.flatMap_assoc, List.flatMap_cons]
    congr 1
    · exact mid_runs T _ _
    · congr 1; funext e; exact mid_runs T _ _
  rw [e2, applyItems_eq]
  · intro r hr
    obtain ⟨e, he, hre⟩ := List.mem_flatMap.1 hr
    have hoke := hall e he
    cases e with
    | col c => simp only [runsOf, List.mem_singleton] at hre; subst hre; exact hoke
    | cont n s b reps cs =>
      obtain ⟨i, _, hi⟩ := List.mem_flatMap.1 hre
      obtain ⟨c, hc, rfl⟩ := List.mem_map.1 hi
      exact hoke.1 c hc
  · rw [List.filter_flatMap, List.map_flatMap]
    have : (Entry.col first :: rest).flatMap (fun e =>
        ((runsOf T (rowPrefix.getD 0) e).filter Run.item).map (fun r => r.2.1 + (r.2.2.start - 1))) =
        ((Entry.col first :: rest).flatMap Entry.itemStarts).map (rowPrefix.getD 0 + ·) := by
      rw [List.map_flatMap]
      congr 1
      funext e
      exact itemStarts_runs T _ e
    rw [this, List.pairwise_map]
    exact hsort.imp (by intro a b hab; omega)

/-- the rows of a regular table -/
theorem computeOffsets_regular (table : Option Str) (rowBytes' : Option Nat) (first : Col) (rest : List Entry)
    (h : Regular table first rest) (rowPrefix rowBytes rowSuffix : Option Int) :
    computeOffsets (readFormatBlock table none rowBytes' ((Entry.col first :: rest).map Entry.toDef))
      rowPrefix rowBytes rowSuffix =
    padRow (((Entry.col first :: rest).flatMap (runsOf ⟨table, 1, rowBytes'⟩ (rowPrefix.getD 0))).flatMap Run.fin)
      rowBytes rowSuffix := by
  rw [computeOffsets_pre, preRows_regular table rowBytes' first rest h]

/-- the values of a table, leaving out a final filler -/
def values (rows : List Row) : List (Str × Int × Nat) :=
  (rows.filter (fun r => !r.fld.placeholder)).map (fun r => (r.fld.name, r.sb, width r.fld))

theorem padRow_values (rows : List Row) (hne : rows ≠ []) (rb rs : Option Int)
    (h : ∀ r ∈ rows, r.fld.placeholder = false) :
    ∃ out, padRow rows rb rs = .ok out ∧ values out = rows.map (fun r => (r.fld.name, r.sb, width r.fld)) := by
  have hfil : rows.filter (fun r => !r.fld.placeholder) = rows := by
    rw [List.filter_eq_self]; intro r hr; simp [h r hr]
  unfold padRow
  rw [List.getLast?_eq_getLast_of_ne_nil hne]
  simp only
  generalize ((match rb with | some n => n - ((rows.getLast hne).sb + ((rows.getLast hne).fld.bytes : Int)) | none => 0) +
    rs.getD 0) = pad
  by_cases hp : 0 < pad
  · rw [if_pos hp]
    refine ⟨_, rfl, ?_⟩
    simp [values, List.filter_append, hfil]
  · rw [if_neg hp]
    exact ⟨_, rfl, by simp [values, hfil]⟩

theorem padRow_eq (rows : List Row) (f : Fld) (x : Int) (hl : rows.getLast? = some ⟨f, x⟩) (n : Int) (rs : Option Int)
    (e : Int) (he : e = x + f.bytes) :
    padRow rows (some n) rs = if 0 < n - e + rs.getD 0 then
      .ok (rows ++ [⟨{ name := c!"PLACEHOLDER_0", startByte := e, bytes := (n - e + rs.getD 0).toNat, placeholder := true, attrs := { dataType := voidType } }, e⟩])
    else .ok rows := by
  subst he
  unfold padRow
  rw [hl]

theorem fin_placeholder (rs : List Run) : ∀ r ∈ rs.flatMap Run.fin, r.fld.placeholder = false := by
  intro r hr
  obtain ⟨x, _, hx⟩ := List.mem_flatMap.1 hr
  obtain ⟨i, _, rfl⟩ := List.mem_map.1 hx
  rfl

theorem fin_ne (T : Info) (p : Int) (first : Col) (rest : List Entry) :
    ((Entry.col first :: rest).flatMap (runsOf T p)).flatMap Run.fin ≠ [] := by
  have := copies_pos first.items
  intro h
  have := congrArg List.length h
  simp [runsOf, Run.fin] at this
  omega

/-- **C13.** For every regular table: the values pdr looks for are the table's values in label order, each
at its START_BYTE within the enclosing object (counted from 0, after the row prefix), with items and
container repetitions the declared distances apart, and each of its declared size. -/
theorem C13_offsets (table : Option Str) (tableBytes : Option Nat) (first : Col) (rest : List Entry)
    (h : Regular table first rest) (rowPrefix rowBytes rowSuffix : Option Int) :
    ∃ rows, computeOffsets
        (readFormatBlock table none tableBytes ((Entry.col first :: rest).map Entry.toDef))
        rowPrefix rowBytes rowSuffix = .ok rows ∧
      values rows = layout (rowPrefix.getD 0) (.col first :: rest) := by
  rw [computeOffsets_regular table tableBytes first rest h]
  obtain ⟨out, h1, h2⟩ := padRow_values _ (fin_ne _ _ first rest) rowBytes rowSuffix (fin_placeholder _)
  refine ⟨out, h1, ?_⟩
  rw [h2, List.flatMap_assoc, List.map_flatMap]
  unfold layout
  congr 1
  funext e
  exact (layout_runs _ _ e).symm

/-- a table with a column of three items, a container of two columns repeated twice, and a last column -/
def exampleRest : List Entry :=
  [.cont c!"C" 7 3 (some 2) [{ name := c!"X", start := 1, bytes := 1 }, { name := c!"Y", start := 2, bytes := 2 }],
   .col { name := c!"B", start := 13, bytes := 4 }]

/-- a table with a column of three items, a container of two columns repeated twice, and a last column -/
def exampleFirst : Col := { name := c!"A", start := 1, bytes := 6, items := some 3, itemBytes := some 2 }

theorem example_regular : Regular (some c!"T") exampleFirst exampleRest where
  ok := by
    refine ⟨⟨by decide, fun _ => rfl, by intro o h; cases h⟩, ?_⟩
    intro e he
    simp only [exampleRest, List.mem_cons, List.not_mem_nil, or_false] at he
    rcases he with rfl | rfl
    · refine ⟨?_, by simp, by simp, by decide⟩
      intro c hc
      simp only [List.mem_cons, List.not_mem_nil, or_false] at hc
      rcases hc with rfl | rfl
      · exact ⟨by decide, by simp, by intro o h; cases h⟩
      · exact ⟨by decide, by simp, by intro o h; cases h⟩
    · exact ⟨by decide, by simp, by intro o h; cases h⟩
  names := by decide
  adjacent := by
    refine ⟨rfl, rfl, ?_⟩
    trivial
  sorted := by decide

example : layout 4 (.col exampleFirst :: exampleRest) =
    [(c!"A", 4, 2), (c!"A", 6, 2), (c!"A", 8, 2), (c!"X", 10, 1), (c!"Y", 11, 2), (c!"X", 13, 1), (c!"Y", 14, 2),
     (c!"B", 16, 4)] := by decide

/-! ### items and repetitions do not overlap -/

/-- **C13 (items).** Item `i` of a column ends before item `j > i` begins, if items are at least their size
apart. -/
theorem C13_items_disjoint (base : Int) (c : Col) (i j : Nat) (vi vj : Str × Int × Nat)
    (hstride : c.size ≤ c.stride) (hij : i < j) (hi : (c.layout base)[i]? = some vi)
    (hj : (c.layout base)[j]? = some vj) : vi.2.1 + vi.2.2 ≤ vj.2.1 := by
  unfold Col.layout at hi hj
  rw [List.getElem?_map] at hi hj
  obtain ⟨a, ha, rfl⟩ := Option.map_eq_some_iff.1 hi
  obtain ⟨b, hb, rfl⟩ := Option.map_eq_some_iff.1 hj
  have ea : a = i := by
    have := List.getElem?_eq_some_iff.1 ha
    obtain ⟨h, e⟩ := this
    simpa using e.symm
  have eb : b = j := by
    have := List.getElem?_eq_some_iff.1 hb
    obtain ⟨h, e⟩ := this
    simpa using e.symm
  subst ea eb
  simp only
  have h1 : (a + 1) * c.stride ≤ b * c.stride := Nat.mul_le_mul_right _ hij
  have h2 : ((a + 1 : Nat) : Int) * c.stride ≤ (b : Int) * c.stride := by exact_mod_cast h1
  have h3 : ((a + 1 : Nat) : Int) * c.stride = a * c.stride + c.stride := by push_cast; ring
  omega

/-- **C13 (repetitions).** If the columns of a container lie within its BYTES, the values of repetition
`i` lie in the `i`-th stretch of that many bytes after the container's start: repetitions do not overlap. -/
theorem C13_repetitions_disjoint (base : Int) (b : Nat) (cs : List Col) (i : Nat)
    (hfit : ∀ c ∈ cs, ∀ v ∈ c.layout 0, 0 ≤ v.2.1 ∧ v.2.1 + v.2.2 ≤ b) :
    ∀ v ∈ cs.flatMap (Col.layout (base + i * b)), base + i * b ≤ v.2.1 ∧ v.2.1 + v.2.2 ≤ base + (i + 1 : Nat) * b := by
  intro v hv
  obtain ⟨c, hc, hv⟩ := List.mem_flatMap.1 hv
  obtain ⟨k, hk, rfl⟩ := List.mem_map.1 hv
  have := hfit c hc (c.name, 0 + (c.start - 1) + k * c.stride, c.size) (List.mem_map.2 ⟨k, hk, rfl⟩)
  simp only at this ⊢
  have h3 : ((i + 1 : Nat) : Int) * b = i * b + b := by push_cast; ring
  omega

example : ∀ c ∈ ([{ name := c!"X", start := 1, bytes := 1 }, { name := c!"Y", start := 2, bytes := 2 }] : List Col),
    ∀ v ∈ c.layout 0, 0 ≤ v.2.1 ∧ v.2.1 + v.2.2 ≤ (3 : Nat) := by decide

/-! ### length of a record -/

theorem recordLength_le (rows : List Row) (m : Int) (hm : 0 ≤ m) (h : ∀ r ∈ rows, r.sb + width r.fld ≤ m) :
    recordLength rows ≤ m := by
  induction rows with
  | nil => exact hm
  | cons r rs ih =>
    simp only [recordLength, List.foldr_cons] at ih ⊢
    have h1 := h r (by simp)
    have h2 := ih (fun r' hr' => h r' (List.mem_cons_of_mem _ hr'))
    omega

theorem le_recordLength (rows : List Row) : ∀ r ∈ rows, r.sb + width r.fld ≤ recordLength rows := by
  induction rows with
  | nil => intro r hr; cases hr
  | cons x xs ih =>
    intro r hr
    simp only [recordLength, List.foldr_cons] at ih ⊢
    rcases List.mem_cons.1 hr with rfl | h
    · omega
    · have := ih r h; omega

/-- **C13 (record length).** For a regular table without row prefix whose values all lie within ROW_BYTES
and whose last value is a column without items, a record is exactly ROW_BYTES plus ROW_SUFFIX_BYTES long. -/
theorem C13_record_length (table : Option Str) (tableBytes : Option Nat) (first : Col) (rest : List Entry)
    (h : Regular table first rest) (rowBytes : Int) (rowSuffix : Option Int) (hsuf : 0 ≤ rowSuffix.getD 0)
    (hrow : ∀ v ∈ layout 0 (.col first :: rest), v.2.1 + v.2.2 ≤ rowBytes) (last : Col) (before : List Entry)
    (hlast : Entry.col first :: rest = before ++ [.col last]) (hitem : last.itemBytes = none)
    (hstart : 1 ≤ last.start) (rows : List Row)
    (hrows : computeOffsets
        (readFormatBlock table none tableBytes ((Entry.col first :: rest).map Entry.toDef))
        none (some rowBytes) rowSuffix = .ok rows) :
    recordLength rows = rowBytes + rowSuffix.getD 0 := by
  rw [computeOffsets_regular table tableBytes first rest h] at hrows
  have hok : last.Ok := by
    have hm : Entry.col last ∈ Entry.col first :: rest := by rw [hlast]; simp
    rcases List.mem_cons.1 hm with hm | hm
    · cases hm; exact h.ok.1
    · exact h.ok.2 _ hm
  have hitems : last.items = none := by
    cases hx : last.items with
    | none => rfl
    | some k =>
      have := hok.2.1 (by rw [hx]; rfl)
      rw [hitem] at this; cases this
  have hoff : last.itemOffset = none := by
    cases hx : last.itemOffset with
    | none => rfl
    | some o =>
      obtain ⟨b, hb, _⟩ := hok.2.2 o hx
      rw [hitem] at hb; cases hb
  have hlay : ∀ r ∈ ((Entry.col first :: rest).flatMap (runsOf ⟨table, 1, tableBytes⟩ 0)).flatMap Run.fin,
      r.sb + width r.fld ≤ rowBytes := by
    intro r hr
    refine hrow (r.fld.name, r.sb, width r.fld) ?_
    have : layout 0 (.col first :: rest) = (((Entry.col first :: rest).flatMap
        (runsOf ⟨table, 1, tableBytes⟩ 0)).flatMap Run.fin).map (fun r => (r.fld.name, r.sb, width r.fld)) := by
      rw [List.flatMap_assoc, List.map_flatMap]
      unfold layout
      congr 1
      funext e
      exact layout_runs _ _ e
    rw [this]
    exact List.mem_map.2 ⟨r, hr, rfl⟩
  obtain ⟨fin, hfin⟩ : ∃ fin, fin = ((Entry.col first :: rest).flatMap (runsOf ⟨table, 1, tableBytes⟩ 0)).flatMap Run.fin :=
    ⟨_, rfl⟩
  simp only [Option.getD_none] at hrows
  rw [← hfin] at hrows hlay
  have hl : fin.getLast? = some ⟨fldOf ⟨table, 1, tableBytes⟩ last, last.start - 1⟩ := by
    rw [hfin, hlast]
    simp [List.flatMap_append, List.getLast?_append, runsOf, Run.fin, hitems, copies]
  have hw : width (fldOf ⟨table, 1, tableBytes⟩ last) = last.bytes := by simp [width, fldOf, hitem]
  have hmem : (⟨fldOf ⟨table, 1, tableBytes⟩ last, last.start - 1⟩ : Row) ∈ fin := List.mem_of_getLast? hl
  have hle := hlay _ hmem
  simp only [hw] at hle
  rw [padRow_eq fin _ _ hl rowBytes rowSuffix (last.start - 1 + (last.bytes : Int)) rfl] at hrows
  by_cases hp : 0 < rowBytes - (last.start - 1 + (last.bytes : Int)) + rowSuffix.getD 0
  · rw [if_pos hp] at hrows
    have hrows := Except.ok.inj hrows
    subst hrows
    refine Int.le_antisymm (recordLength_le _ _ (by omega) ?_) ?_
    · intro r hr
      rcases List.mem_append.1 hr with h' | h'
      · have := hlay r h'; omega
      · simp only [List.mem_singleton] at h'
        subst h'
        simp only [width, Option.getD_none]
        omega
    · refine Int.le_trans (Int.le_of_eq ?_) (le_recordLength _ _ (List.mem_append_right _ (List.mem_singleton.2 rfl)))
      simp only [width, Option.getD_none]
      omega
  · rw [if_neg hp] at hrows
    have hrows := Except.ok.inj hrows
    subst hrows
    have e : rowBytes + rowSuffix.getD 0 = last.start - 1 + last.bytes := by omega
    refine Int.le_antisymm (recordLength_le _ _ (by omega) ?_) ?_
    · intro r hr
      have := hlay r hr; omega
    · have := le_recordLength _ _ hmem
      simp only [hw] at this
      omega

example : ∀ v ∈ layout 0 (.col exampleFirst :: exampleRest), v.2.1 + v.2.2 ≤ (20 : Int) := by decide

/-! ### C45: tables read from the wrong places -/

/-- the table with the start bytes of its containers changed -/
def moveContainers (f : Str → Int) : Entry → Entry
  | .col c => .col c
  | .cont n _ b r cs => .cont n (f n) b r cs

/-- **C45 (limit).** The START_BYTE of a container is not looked at: whatever it is, the columns are looked
for at the same places (directly after the column before). -/
theorem C45_container_start_ignored (name : Option Str) (reps bytes : Option Nat) (es : List Entry) (f : Str → Int)
    (rowPrefix rowBytes rowSuffix : Option Int) :
    computeOffsets (readFormatBlock name reps bytes ((es.map (moveContainers f)).map Entry.toDef)) rowPrefix rowBytes rowSuffix =
      computeOffsets (readFormatBlock name reps bytes (es.map Entry.toDef)) rowPrefix rowBytes rowSuffix := by
  have hflat : ∀ es : List Entry, ∀ d ∈ es.map Entry.toDef, Flat d := by
    intro es d hd
    obtain ⟨e, he, rfl⟩ := List.mem_map.1 hd
    cases e with
    | col c => trivial
    | cont n s b r cs =>
      intro c hc
      obtain ⟨c', _, rfl⟩ := List.mem_map.1 hc
      exact Or.inl ⟨_, _, _, _, _, _, _, rfl⟩
  rw [C26_flat_tables _ _ _ _ (hflat _), C26_flat_tables _ _ _ _ (hflat _)]
  congr 1
  induction es with
  | nil => rfl
  | cons e es ih =>
    simp only [List.map_cons, allColumns, ih]
    congr 1
    cases e <;> rfl

/-- **C45 (limit).** In a table that consists of one container, the repetitions are not moved at all:
every repetition is read from the same bytes. -/
theorem C45_only_container_overlaps (table n : Str) (s : Int) (b k : Nat) (hk : 1 ≤ k) (cs : List Col) (hne : cs ≠ [])
    (hok : ∀ c ∈ cs, c.Ok ∧ c.itemBytes = none) (rowPrefix rowBytes rowSuffix : Option Int) :
    ∃ rows, computeOffsets (readFormatBlock (some table) none none
        [Entry.toDef (.cont n s b (some k) cs)]) rowPrefix rowBytes rowSuffix = .ok rows ∧
      values rows = (List.replicate k (cs.map (fun c => (c.name, rowPrefix.getD 0 + (c.start - 1), c.bytes)))).flatten := by
  have hflat : ∀ d ∈ [Entry.toDef (.cont n s b (some k) cs)], Flat d := by
    intro d hd
    rw [List.mem_singleton] at hd
    subst hd
    intro c hc
    obtain ⟨c', _, rfl⟩ := List.mem_map.1 hc
    exact Or.inl ⟨_, _, _, _, _, _, _, rfl⟩
  rw [C26_flat_tables _ _ _ _ hflat]
  have hin := init_fields ⟨some table, 1, none⟩ rowPrefix [.cont n s b (some k) cs]
  simp only [List.map_cons, List.map_nil, List.flatMap_cons, List.flatMap_nil, List.append_nil] at hin
  have hitems : ∀ c ∈ cs, c.items = none := by
    intro c hc
    cases hx : c.items with
    | none => rfl
    | some k =>
      have := (hok c hc).1.2.1 (by rw [hx]; rfl)
      rw [(hok c hc).2] at this; cases this
  have hcols : ∀ info p, cs.flatMap (colRows info p) = cs.map (fun c => ⟨fldOf info c, p + (c.start - 1)⟩) := by
    intro info p
    clear hne hin hflat
    induction cs with
    | nil => rfl
    | cons c cs ih =>
      rw [List.flatMap_cons, ih (fun c' h' => hok c' (List.mem_cons_of_mem _ h')) (fun c' h' => hitems c' (List.mem_cons_of_mem _ h'))]
      simp [colRows, hitems c (by simp), copies]
  have hrowsdef : init ⟨some table, 1, none⟩ (rowPrefix.getD 0) (.cont n s b (some k) cs) =
      (List.replicate k (cs.map (fun c => (⟨fldOf ⟨some n, k, some b⟩ c, rowPrefix.getD 0 + (c.start - 1)⟩ : Row)))).flatten := by
    simp only [init, copies, Nat.max_eq_left hk, Option.getD_some, hcols]
  generalize hR : init ⟨some table, 1, none⟩ (rowPrefix.getD 0) (.cont n s b (some k) cs) = R at *
  have hmemR : ∀ r ∈ R, ∃ c ∈ cs, r = ⟨fldOf ⟨some n, k, some b⟩ c, rowPrefix.getD 0 + (c.start - 1)⟩ := by
    intro r hr
    rw [hrowsdef] at hr
    obtain ⟨l, hl, hr⟩ := List.mem_flatten.1 hr
    rw [List.eq_of_mem_replicate hl] at hr
    obtain ⟨c, hc, rfl⟩ := List.mem_map.1 hr
    exact ⟨c, hc, rfl⟩
  have hRne : R ≠ [] := by
    obtain ⟨m, rfl⟩ : ∃ m, k = m + 1 := ⟨k - 1, by omega⟩
    obtain ⟨c, cs', rfl⟩ := List.exists_cons_of_ne_nil hne
    rw [hrowsdef]
    simp [List.replicate_succ]
  have hbn : ∃ x, blockNames R = [x] := by
    unfold blockNames
    have hf : R.filter (fun r => r.fld.name ≠ c!"PLACEHOLDER_0") = R := by
      rw [List.filter_eq_self]
      intro r hr
      obtain ⟨c, hc, rfl⟩ := hmemR r hr
      exact decide_eq_true (hok c hc).1.1
    rw [hf]
    have : R.map (·.fld.blockName) = List.replicate R.length (some n) := by
      rw [List.eq_replicate_iff]
      refine ⟨by simp, ?_⟩
      intro x hx
      obtain ⟨r, hr, rfl⟩ := List.mem_map.1 hx
      obtain ⟨c, hc, rfl⟩ := hmemR r hr
      rfl
    rw [this]
    obtain ⟨m, hm⟩ : ∃ m, R.length = m + 1 := ⟨R.length - 1, by have := List.length_pos_iff.2 hRne; omega⟩
    refine ⟨some n, ?_⟩
    rw [hm]
    clear hm this
    induction m with
    | zero => rfl
    | succ m ih => rw [List.replicate_succ, uniq, ih]; simp
  obtain ⟨x, hx⟩ := hbn
  unfold computeOffsets
  simp only [Option.getD_none, hin, hx, offsetBlocks]
  have happ : applyItems R = .ok R := by
    unfold applyItems
    rw [if_neg]
    intro h
    obtain ⟨r, hr, hs⟩ := List.any_eq_true.1 h
    obtain ⟨c, hc, rfl⟩ := hmemR r hr
    simp [fldOf, (hok c hc).2] at hs
  rw [happ]
  simp only
  obtain ⟨out, h1, h2⟩ := padRow_values R hRne rowBytes rowSuffix (fun r hr => by obtain ⟨c, hc, rfl⟩ := hmemR r hr; rfl)
  refine ⟨out, h1, ?_⟩
  rw [h2, hrowsdef, List.map_flatten, List.map_replicate, List.map_map]
  congr 2
  refine List.map_congr_left ?_
  intro c hc
  simp [fldOf, width, (hok c hc).2]

/-- **C45 (limit).** Two columns of `k` items each, listed against their byte order: the items of each are
looked for where the other column lies. -/
theorem C45_items_out_of_order (table a b : Str) (ta tb : Attrs) (sa sb : Int) (ba bb za zb k : Nat) (hk : 1 ≤ k)
    (hlt : sb < sa) (rowBytes rowSuffix : Option Int) (ha : a ≠ c!"PLACEHOLDER_0") (hb : b ≠ c!"PLACEHOLDER_0") :
    ∃ rows, computeOffsets (readFormatBlock (some table) none none
        [.column a sa ba (some k) (some za) none ta, .column b sb bb (some k) (some zb) none tb]) none rowBytes rowSuffix = .ok rows ∧
      values rows = (List.range k).map (fun (i : Nat) => (a, sb - 1 + i * za, za)) ++
        (List.range k).map (fun (i : Nat) => (b, sa - 1 + i * zb, zb)) := by
  have hin : initialRows (readFormatBlock (some table) none none
      [.column a sa ba (some k) (some za) none ta, .column b sb bb (some k) (some zb) none tb]) none =
      List.replicate k ⟨fldOf ⟨some table, 1, none⟩ ⟨a, sa, ba, some k, some za, none, ta⟩, sa - 1⟩ ++
      List.replicate k ⟨fldOf ⟨some table, 1, none⟩ ⟨b, sb, bb, some k, some zb, none, tb⟩, sb - 1⟩ := by
    rw [C26_flat_tables _ _ _ _ (by intro d hd; simp at hd; rcases hd with rfl | rfl <;> trivial)]
    simp [allColumns, columnsOf, copies, Nat.max_eq_left hk, initialRows, fldOf]
  generalize hfa : fldOf ⟨some table, 1, none⟩ ⟨a, sa, ba, some k, some za, none, ta⟩ = fa at hin
  generalize hfb : fldOf ⟨some table, 1, none⟩ ⟨b, sb, bb, some k, some zb, none, tb⟩ = fb at hin
  have ia : itemSize fa = some za := by rw [← hfa]; rfl
  have ib : itemSize fb = some zb := by rw [← hfb]; rfl
  have iba : fa.itemBytes = some za := by rw [← hfa]; rfl
  have ibb : fb.itemBytes = some zb := by rw [← hfb]; rfl
  have oa : fa.itemOffset = none := by rw [← hfa]; rfl
  have ob : fb.itemOffset = none := by rw [← hfb]; rfl
  generalize hR : List.replicate k (⟨fa, sa - 1⟩ : Row) ++ List.replicate k ⟨fb, sb - 1⟩ = R at hin
  have hmem : ∀ r ∈ R, r.fld = fa ∨ r.fld = fb := by
    intro r hr
    rw [← hR] at hr
    rcases List.mem_append.1 hr with h | h
    · left; rw [List.eq_of_mem_replicate h]
    · right; rw [List.eq_of_mem_replicate h]
  have hbn : blockNames R = [some table] := by
    unfold blockNames
    have hf : R.filter (fun r => r.fld.name ≠ c!"PLACEHOLDER_0") = R := by
      rw [List.filter_eq_self]
      intro r hr
      rcases hmem r hr with h | h
      · rw [h, ← hfa]; exact decide_eq_true ha
      · rw [h, ← hfb]; exact decide_eq_true hb
    rw [hf]
    have : R.map (·.fld.blockName) = List.replicate (k + k) (some table) := by
      rw [← hR]
      simp [← hfa, ← hfb, fldOf, List.replicate_append_replicate]
    rw [this]
    obtain ⟨m, hm⟩ : ∃ m, k + k = m + 1 := ⟨k + k - 1, by omega⟩
    rw [hm]
    clear hm this
    induction m with
    | zero => rfl
    | succ m ih => rw [List.replicate_succ, uniq, ih]; simp
  have hcount : countSorted (List.replicate k (sa - 1) ++ List.replicate k (sb - 1)) = [(sb - 1, k), (sa - 1, k)] := by
    have h1 : countSorted (List.replicate k (sb - 1)) = [(sb - 1, k)] := by
      have := countSorted_run (sb - 1) k hk [] (by intro e he; cases he)
      simpa [countSorted] using this
    have h2 : ∀ m, countSorted (List.replicate (m + 1) (sa - 1) ++ List.replicate k (sb - 1)) = [(sb - 1, k), (sa - 1, m + 1)] := by
      intro m
      induction m with
      | zero =>
        simp only [Nat.zero_add, List.replicate_one, List.singleton_append, countSorted, h1, countSorted.insert]
        rw [if_neg (by omega), if_neg (by omega)]
      | succ m ih =>
        rw [List.replicate_succ, List.cons_append, countSorted, ih]
        simp only [countSorted.insert]
        rw [if_neg (by omega), if_neg (by omega), if_neg (by omega), if_pos trivial]
    obtain ⟨m, rfl⟩ : ∃ m, k = m + 1 := ⟨k - 1, by omega⟩
    exact h2 m
  have happ : applyItems R = .ok ((List.range k).map (fun (i : Nat) => ⟨fa, ((i * za : Nat) : Int) + (sb - 1)⟩) ++
      (List.range k).map (fun (i : Nat) => ⟨fb, ((i * zb : Nat) : Int) + (sa - 1)⟩)) := by
    unfold applyItems
    rw [if_pos (List.any_eq_true.2 ⟨⟨fa, sa - 1⟩, by
      rw [← hR]; exact List.mem_append_left _ (List.mem_replicate.2 ⟨by omega, rfl⟩), by rw [iba]; rfl⟩)]
    rw [if_neg]
    · simp only
      have hg : R.filter (fun r => (itemSize r.fld).isSome) = R := by
        rw [List.filter_eq_self]
        intro r hr
        rcases hmem r hr with h | h
        · rw [h, ia]; rfl
        · rw [h, ib]; rfl
      have hsz : R.filterMap (fun r => itemSize r.fld) = List.replicate k za ++ List.replicate k zb := by
        rw [← hR, List.filterMap_append]
        simp [ia, ib]
      have hsb : R.map (·.sb) = List.replicate k (sa - 1) ++ List.replicate k (sb - 1) := by
        rw [← hR]; simp
      rw [hg, hsz, hsb, hcount]
      have hoff : itemOffsets [(sb - 1, k), (sa - 1, k)] (List.replicate k za ++ List.replicate k zb) =
          (List.range k).map (fun i => ((i * za : Nat) : Int) + (sb - 1)) ++
          ((List.range k).map (fun i => ((i * zb : Nat) : Int) + (sa - 1)) ++ []) := by
        obtain ⟨m, rfl⟩ : ∃ m, k = m + 1 := ⟨k - 1, by omega⟩
        simp only [itemOffsets]
        rw [List.drop_left' (by simp)]
        simp [List.replicate_succ]
      rw [hoff, ← hR]
      congr 1
      have r1 := assign_run fa (sa - 1) (by rw [ia]; rfl) (List.replicate k ⟨fb, sb - 1⟩)
        ((List.range k).map (fun i => ((i * za : Nat) : Int) + (sb - 1)))
        ((List.range k).map (fun i => ((i * zb : Nat) : Int) + (sa - 1)) ++ [])
      have r2 := assign_run fb (sb - 1) (by rw [ib]; rfl) []
        ((List.range k).map (fun i => ((i * zb : Nat) : Int) + (sa - 1))) []
      simp only [List.length_map, List.length_range] at r1 r2
      rw [List.append_nil] at r2
      rw [r1, r2]
      simp [assignItems, Function.comp_def]
    · intro h
      obtain ⟨r, hr, hb⟩ := List.any_eq_true.1 h
      rcases hmem r hr with h | h
      · rw [h, oa] at hb; cases hb
      · rw [h, ob] at hb; cases hb
  unfold computeOffsets
  simp only [hin, hbn, offsetBlocks, happ]
  obtain ⟨out, h1, h2⟩ := padRow_values ((List.range k).map (fun (i : Nat) => (⟨fa, ((i * za : Nat) : Int) + (sb - 1)⟩ : Row)) ++
      (List.range k).map (fun (i : Nat) => ⟨fb, ((i * zb : Nat) : Int) + (sa - 1)⟩))
    (by intro h; have := congrArg List.length h; simp at this; omega) rowBytes rowSuffix
    (by
      intro r hr
      rcases List.mem_append.1 hr with h | h
      · obtain ⟨i, _, rfl⟩ := List.mem_map.1 h; rw [← hfa]; rfl
      · obtain ⟨i, _, rfl⟩ := List.mem_map.1 h; rw [← hfb]; rfl)
  refine ⟨out, h1, ?_⟩
  rw [h2, List.map_append, List.map_map, List.map_map]
  congr 1
  · refine List.map_congr_left ?_
    intro i _
    simp [← hfa, fldOf, width]; omega
  · refine List.map_congr_left ?_
    intro i _
    simp [← hfb, fldOf, width]; omega

/-- **C45 (limit).** A last column with `k ≥ 2` items followed by at most `(k-1)` items' worth of spare
bytes: the records are taken to be as long as the column, not ROW_BYTES, so every record after the first is
read from the wrong place. -/
theorem C45_spare_bytes_after_items (table a : Str) (t : Attrs) (s : Int) (hs : 1 ≤ s) (z k : Nat) (hk : 2 ≤ k)
    (ha : a ≠ c!"PLACEHOLDER_0") (spare : Nat) (hspare : spare ≤ (k - 1) * z) :
    ∃ rows, computeOffsets (readFormatBlock (some table) none none [.column a s (k * z) (some k) (some z) none t])
        none (some (s - 1 + k * z + spare)) none = .ok rows ∧
      recordLength rows = s - 1 + k * z := by
  have hreg : Regular (some table) ⟨a, s, k * z, some k, some z, none, t⟩ [] := by
    refine ⟨⟨⟨ha, fun _ => rfl, by intro o h; cases h⟩, by intro e he; cases he⟩, by simp [contNames], trivial, ?_⟩
    simp [Entry.itemStarts, Col.itemStart]
  have h := computeOffsets_regular (some table) none _ [] hreg none (some (s - 1 + k * z + spare)) none
  simp only [List.map_cons, List.map_nil, Entry.toDef, Col.toDef, List.flatMap_cons, List.flatMap_nil, List.append_nil,
    runsOf, Option.getD_none] at h
  rw [h]
  have hkm : max k 1 = k := by omega
  obtain ⟨m, rfl⟩ : ∃ m, k = m + 1 := ⟨k - 1, by omega⟩
  have hfin : Run.fin (⟨some table, 1, none⟩, 0, ⟨a, s, (m + 1) * z, some (m + 1), some z, none, t⟩) =
      (List.range (m + 1)).map (fun (i : Nat) => (⟨fldOf ⟨some table, 1, none⟩ ⟨a, s, (m + 1) * z, some (m + 1), some z, none, t⟩,
        s - 1 + i * z⟩ : Row)) := by
    simp [Run.fin, copies, Col.stride]
  rw [hfin]
  have hl : ((List.range (m + 1)).map (fun (i : Nat) => (⟨fldOf ⟨some table, 1, none⟩ ⟨a, s, (m + 1) * z, some (m + 1), some z, none, t⟩,
        s - 1 + i * z⟩ : Row))).getLast? = some ⟨fldOf ⟨some table, 1, none⟩ ⟨a, s, (m + 1) * z, some (m + 1), some z, none, t⟩,
        s - 1 + m * z⟩ := by
    rw [List.range_succ, List.map_append, List.getLast?_append]
    rfl
  rw [padRow_eq _ _ _ hl _ none (s - 1 + m * z + ((m + 1) * z : Nat)) rfl]
  have hsp : (spare : Int) ≤ m * z := by
    have : spare ≤ m * z := by simpa using hspare
    exact_mod_cast this
  rw [Option.getD_none, if_neg (by push_cast; linarith)]
  refine ⟨_, rfl, ?_⟩
  have e : ((m + 1 : Nat) : Int) * z = m * z + z := by push_cast; ring
  refine Int.le_antisymm (recordLength_le _ _ ?_ ?_) ?_
  · have : (0:Int) ≤ ((m + 1 : Nat) : Int) * z := by exact_mod_cast Nat.zero_le ((m+1)*z)
    omega
  · intro r hr
    obtain ⟨i, hi, rfl⟩ := List.mem_map.1 hr
    simp only [width, fldOf, Option.getD_some]
    have hi' : i ≤ m := by have := List.mem_range.1 hi; omega
    have h1 : (i : Int) * z ≤ m * z := by exact_mod_cast Nat.mul_le_mul_right z hi'
    omega
  · have := le_recordLength _ _ (List.mem_of_getLast? hl)
    simp only [width, fldOf, Option.getD_some] at this ⊢
    omega

/-- **C45 (limit).** An unrepeated container of two columns that follows a container repeated twice: its
second column is looked for its BYTES too far. -/
theorem C45_container_after_repeated (a x y z : Str) (ta tx ty tz : Attrs) (sa sx sy sz s1 s2 : Int) (ba bx by' bz b1 b2 : Nat)
    (ha : a ≠ c!"PLACEHOLDER_0") (hx : x ≠ c!"PLACEHOLDER_0") (hy : y ≠ c!"PLACEHOLDER_0") (hz : z ≠ c!"PLACEHOLDER_0") :
    ∃ rows, computeOffsets (readFormatBlock (some c!"T") none none
        [.column a sa ba none none none ta,
         .container c!"C" s1 (some b1) (some 2) [.column x sx bx none none none tx],
         .container c!"D" s2 (some b2) none [.column y sy by' none none none ty, .column z sz bz none none none tz]])
        none none none = .ok rows ∧
      values rows = [(a, sa - 1, ba), (x, sa - 1 + ba + (sx - 1), bx), (x, sa - 1 + ba + (sx - 1) + b1, bx),
        (y, sa - 1 + ba + (sx - 1) + b1 + bx + (sy - 1), by'),
        (z, sa - 1 + ba + (sx - 1) + b1 + bx + (sz - 1) + b2, bz)] := by
  have hp : contains c!"C" c!"PLACEHOLDER" = false := by decide
  have hq : contains c!"D" c!"PLACEHOLDER" = false := by decide
  simp [readFormatBlock, readEntries, readEntry, appendObj, appendRepeated, computeOffsets, initialRows, blockNames, uniq,
    ha, hx, hy, hz, offsetBlocks, offsetBlock, priorRow, hp, hq, placeholderName, shiftBlock, List.replicate,
    List.findIdx?_cons, chunkOf, applyItems, padRow, values, width]
  omega

end Verif.Format
