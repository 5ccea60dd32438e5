/-
Theorems about text tables.
-/
import Verif.Lemmas.AsciiText
import Verif.Props.TableScale

namespace Verif.Ascii
open Verif.Py Verif.Ascii.Spec Verif.Locate Verif.Literal Verif.Table Verif.Table.Spec Verif.Format Verif.Format.Spec Verif.Scaling

/-! ### the format definition -/

/-- what may come after the columns of the label: the rest of the row -/
def Tail (names : List Str) (specs : List (Int × Nat)) : Prop :=
  (names = [] ∧ specs = []) ∨ (names = [c!"PLACEHOLDER_0"] ∧ ∃ s, specs = [s] ∧ 0 ≤ s.1)

/-- the format definition of a table with columns named `N` at `S`, and the rest of the row -/
def laidFmt (N : List Str) (S : List Slot) (names : List Str) (specs : List (Int × Nat)) : Fmt where
  names := N ++ names
  places := .known (S.map (fun s => (s.off, s.size)) ++ specs)
  scale := S.map (·.attrs.scale) ++ names.map (fun _ => none)
  offset := S.map (·.attrs.offset) ++ names.map (fun _ => none)

theorem format_laid (b : Table.Block) (first : Col) (rest : List Format.Spec.Entry) (h : Laid b first rest)
    (ht : IsText b (.col first :: rest)) :
    ∃ names specs, Tail names specs ∧ formatOf b = .ok (some (laidFmt (columnNames (b.rowPrefix.getD 0) (.col first :: rest))
      (slots (b.rowPrefix.getD 0) (.col first :: rest)) names specs)) := by
  obtain ⟨rows, tail, hc, hn, hs, _, _, htail⟩ := laid_rows b first rest h
  have h1 : rows.map (fun r => (r.sb, width r.fld)) = (slots (b.rowPrefix.getD 0) (.col first :: rest)).map (fun s => (s.off, s.size)) := by
    have := congrArg (List.map (fun q : Int × Nat × Attrs => (q.1, q.2.1))) hs
    simpa [List.map_map, Function.comp_def] using this
  have h2 : rows.map (fun r => r.fld.attrs) = (slots (b.rowPrefix.getD 0) (.col first :: rest)).map (fun s => s.attrs) := by
    have := congrArg (List.map (fun q : Int × Nat × Attrs => q.2.2)) hs
    simpa [List.map_map, Function.comp_def] using this
  have h3 : ∀ (β : Type) (f : Attrs → β), rows.map (fun r => f r.fld.attrs) =
      (slots (b.rowPrefix.getD 0) (.col first :: rest)).map (fun s => f s.attrs) := by
    intro β f
    have := congrArg (List.map f) h2
    simpa [List.map_map, Function.comp_def] using this
  have hascii : probablyAscii b (rows ++ tail) = true := by
    unfold probablyAscii
    simp only [Bool.or_eq_true, Datatypes.contains_iff, beq_iff_eq, or_assoc]
    rcases ht with ⟨s, hs', ha⟩ | h | h | h
    · left
      rw [List.any_eq_true]
      have : s.attrs ∈ rows.map (fun r => r.fld.attrs) := by
        rw [h2]
        exact List.mem_map_of_mem hs'
      obtain ⟨r, hr, e⟩ := List.mem_map.1 this
      exact ⟨r, List.mem_append_left _ hr, by rw [Datatypes.contains_iff, e]; exact ha⟩
    · exact Or.inr (Or.inl h)
    · exact Or.inr (Or.inr (Or.inl h))
    · exact Or.inr (Or.inr (Or.inr h))
  have hp : parseStructure b = .ok (rows ++ tail, none) := by
    unfold parseStructure
    rw [hc]
    simp only [hascii, if_true]
  refine ⟨tail.map (·.fld.name), tail.map (fun r => (r.sb, width r.fld)), ?_, ?_⟩
  · rcases htail with rfl | ⟨f, rfl, hf⟩
    · exact Or.inl ⟨rfl, rfl⟩
    · exact Or.inr ⟨by simp [hf.1], _, rfl, hf.2.2.1⟩
  · unfold formatOf
    rw [hp]
    simp only [List.map_append]
    rw [hn, h1, h3 _ (·.scale), h3 _ (·.offset)]
    have h4 : tail.map (fun r => r.fld.attrs.scale) = (tail.map (·.fld.name)).map (fun _ => none) := by
      rcases htail with rfl | ⟨f, rfl, hf⟩
      · rfl
      · simp [hf.2.1]
    have h5 : tail.map (fun r => r.fld.attrs.offset) = (tail.map (·.fld.name)).map (fun _ => none) := by
      rcases htail with rfl | ⟨f, rfl, hf⟩
      · rfl
      · simp [hf.2.1]
    rw [h4, h5]
    rfl

theorem laidFmt_none {N : List Str} {S : List Slot} {names : List Str} {specs : List (Int × Nat)}
    (h : ∀ s ∈ S, s.attrs.scale = none ∧ s.attrs.offset = none) :
    (∀ n ∈ (laidFmt N S names specs).scale, n = none) ∧ ∀ n ∈ (laidFmt N S names specs).offset, n = none := by
  constructor <;> intro n hn <;> rcases List.mem_append.1 hn with hn | hn <;> obtain ⟨s, hs, rfl⟩ := List.mem_map.1 hn
  · exact (h s hs).1
  · rfl
  · exact (h s hs).2
  · rfl

/-! ### names, without scaling -/

theorem unify_none (R : Float.Rounding Float.double) (ns : List (Option Num)) (h : ∀ n ∈ ns, n = none) :
    unify R ns = ns := by
  unfold unify
  split
  · rfl
  · rw [List.map_congr_left (g := id), List.map_id]
    intro n hn
    rw [h n hn]
    rfl

theorem lookup_none (names : List Str) (a b : List (Option Num)) (ha : ∀ n ∈ a, n = none) (hb : ∀ n ∈ b, n = none) (x : Str) :
    ((names.zip (a.zip b)).lookup x).getD (none, none) = (none, none) := by
  cases hl : (names.zip (a.zip b)).lookup x with
  | none => rfl
  | some q =>
    have hm : ∃ y, (y, q) ∈ names.zip (a.zip b) := by
      clear ha hb
      generalize names.zip (a.zip b) = l at hl
      induction l with
      | nil => cases hl
      | cons e l ih =>
        obtain ⟨y, v⟩ := e
        rw [List.lookup_cons] at hl
        split at hl
        · cases hl
          exact ⟨y, List.mem_cons_self⟩
        · obtain ⟨z, hz⟩ := ih hl
          exact ⟨z, List.mem_cons_of_mem _ hz⟩
    obtain ⟨y, hy⟩ := hm
    have := List.of_mem_zip (List.of_mem_zip hy).2
    rw [Option.getD_some]
    exact Prod.ext (ha _ this.1) (hb _ this.2)

theorem scaleCells_none (P : Pandas) (c : Cells) : scaleCells P c none none = .ok c := by
  cases c <;> rfl

/-- scaling a column -/
def scaleNamed (P : Pandas) (fmt : Fmt) (q : Str × Cells) : Except PyErr (Str × Cells) :=
  let f := ((fmt.names.zip ((unify P.R fmt.scale).zip (unify P.R fmt.offset))).lookup q.1).getD (none, none)
  (scaleCells P q.2 f.1 f.2).map (fun c => (q.1, c))

/-- the names of the columns, after those of the rest of the row have been dropped -/
theorem readTable_named (P : Pandas) (delim : Option Str) (fmt : Fmt) (text : Str) (names tail : List Str) (cols extra : List Cells)
    (hn : fmt.names = names ++ tail) (ht : tail = [] ∨ tail = [c!"PLACEHOLDER_0"]) (he : extra = [] ∨ extra.length = tail.length)
    (hplain : ∀ n ∈ names, ¬ c!"PLACEHOLDER" <:+: n) (hlen : cols.length = names.length)
    (hr : readText P delim fmt text = .ok (cols ++ extra)) :
    readTable P delim fmt text = (names.zip cols).mapM (scaleNamed P fmt) := by
  have hfilt : ∀ (cs : List Cells), (names.zip cs).filter (fun q => !contains q.1 c!"PLACEHOLDER") = names.zip cs := by
    intro cs
    rw [List.filter_eq_self]
    intro q hq
    have := hplain q.1 (List.of_mem_zip hq).1
    rw [← Datatypes.contains_iff] at this
    simpa using this
  have hkept : ∃ ns, nameColumns fmt.names (cols ++ extra) = .ok ns ∧
      (ns.zip (cols ++ extra)).filter (fun q => !contains q.1 c!"PLACEHOLDER") = names.zip cols := by
    unfold nameColumns
    rw [hn]
    by_cases hl : (cols ++ extra).length = (names ++ tail).length
    · rw [if_neg (by simpa using hl)]
      refine ⟨_, rfl, ?_⟩
      rw [List.zip_append hlen.symm, List.filter_append, hfilt]
      have : (tail.zip extra).filter (fun q => !contains q.1 c!"PLACEHOLDER") = [] := by
        rw [List.filter_eq_nil_iff]
        intro q hq
        have hq := (List.of_mem_zip hq).1
        rcases ht with rfl | rfl
        · cases hq
        · rw [List.mem_singleton] at hq
          rw [hq]
          decide
      rw [this, List.append_nil]
    · have hx : extra = [] := by
        rcases he with h | h
        · exact h
        · exact absurd (by rw [List.length_append, List.length_append, hlen, h]) hl
      subst hx
      have ht' : tail = [c!"PLACEHOLDER_0"] := by
        rcases ht with rfl | h
        · exact absurd (by simp [hlen]) hl
        · exact h
      subst ht'
      rw [if_pos (by simpa using hl)]
      have hshort : (names ++ [c!"PLACEHOLDER_0"]).filter (fun m => !startsWith m c!"PLACEHOLDER") = names := by
        rw [List.filter_append]
        have h1 : names.filter (fun m => !startsWith m c!"PLACEHOLDER") = names := by
          rw [List.filter_eq_self]
          intro n hn
          rw [Bool.not_eq_true', ← Bool.not_eq_true, startsWith_iff]
          rintro ⟨r, rfl⟩
          exact hplain _ hn ⟨[], r, rfl⟩
        have h2 : [c!"PLACEHOLDER_0"].filter (fun m => !startsWith m c!"PLACEHOLDER") = [] := by decide
        rw [h1, h2, List.append_nil]
      simp only [hshort, List.append_nil]
      rw [if_pos hlen.symm]
      exact ⟨_, rfl, hfilt cols⟩
  obtain ⟨ns, h1, h2⟩ := hkept
  unfold readTable
  rw [hr]
  simp only [h1, h2]
  rfl

/-- … if nothing is scaled -/
theorem readTable_names (P : Pandas) (delim : Option Str) (fmt : Fmt) (text : Str) (names tail : List Str) (cols extra : List Cells)
    (hn : fmt.names = names ++ tail) (ht : tail = [] ∨ tail = [c!"PLACEHOLDER_0"]) (he : extra = [] ∨ extra.length = tail.length)
    (hplain : ∀ n ∈ names, ¬ c!"PLACEHOLDER" <:+: n) (hlen : cols.length = names.length)
    (hs : ∀ n ∈ fmt.scale, n = none) (ho : ∀ n ∈ fmt.offset, n = none) (hr : readText P delim fmt text = .ok (cols ++ extra)) :
    readTable P delim fmt text = .ok (names.zip cols) := by
  rw [readTable_named P delim fmt text names tail cols extra hn ht he hplain hlen hr]
  have := Verif.Scaling.mapM_ok (scaleNamed P fmt) id (names.zip cols) (by
      intro q _
      unfold scaleNamed
      rw [unify_none P.R _ hs, unify_none P.R _ ho]
      simp only [lookup_none _ _ _ hs ho, scaleCells_none]
      rfl)
  rw [this, List.map_id]

/-! ### scaling -/

theorem lookup_nodup {β : Type} (l : List Str) (v : List β) (h : l.Nodup) (k : Nat) (x : Str) (y : β) (hx : l[k]? = some x)
    (hy : v[k]? = some y) : (l.zip v).lookup x = some y := by
  induction l generalizing v k with
  | nil => cases hx
  | cons a l ih =>
    cases v with
    | nil => cases hy
    | cons b v =>
      rw [List.zip_cons_cons, List.lookup_cons]
      cases k with
      | zero =>
        cases hx
        cases hy
        simp
      | succ k =>
        rw [List.getElem?_cons_succ] at hx hy
        have hne : x ≠ a := by
          rintro rfl
          exact (List.nodup_cons.1 h).1 (List.mem_of_getElem? hx)
        have : (x == a) = false := by simpa using hne
        rw [this]
        exact ih v (List.nodup_cons.1 h).2 k hx hy

theorem unify_at (R : Float.Rounding Float.double) (ns : List (Option Num)) (k : Nat) (n : Option Num) (h : ns[k]? = some n) :
    ∃ m, (unify R ns)[k]? = some m ∧ (m = n ∨ m = n.map (fun n => .float (R.fl n.val))) := by
  unfold unify
  split
  · exact ⟨n, h, Or.inl rfl⟩
  · exact ⟨n.map (fun n => .float (R.fl n.val)), by rw [List.getElem?_map, h]; rfl, Or.inr rfl⟩

/-- scaling one column -/
theorem scaleCells_can (P : Pandas) (a : Attrs) (c : Cells) (h : CanScale a c) (sc of : Option Num)
    (hsc : sc = a.scale ∨ sc = a.scale.map (fun n => .float (P.R.fl n.val)))
    (hof : of = a.offset ∨ of = a.offset.map (fun n => .float (P.R.fl n.val))) :
    ∃ c', scaleCells P c sc of = .ok c' ∧ ScaledAs a c c' := by
  rcases h with hu | ⟨h0, col, vs, rfl, hsh, hk⟩
  · have e1 : sc = none := by rcases hsc with h | h <;> rw [h, hu.1]; rfl
    have e2 : of = none := by rcases hof with h | h <;> rw [h, hu.2]; rfl
    rw [e1, e2]
    exact ⟨c, scaleCells_none P c, Or.inl ⟨hu, rfl⟩⟩
  · have : ∃ d, Table.Fits d col ∧ ExactFor a (fun x => ∃ v ∈ vs, Amount v x) d := by
      rcases hk with ⟨⟨ns, rfl⟩, hx⟩ | ⟨⟨ns, rfl⟩, hx⟩
      · exact ⟨⟨some .little, .int, 8⟩, ⟨ns, rfl⟩, hx⟩
      · exact ⟨⟨some .little, .float, 8⟩, ⟨ns, rfl⟩, hx⟩
    obtain ⟨d, hfit, hx⟩ := this
    obtain ⟨c', e, ws, h1, h2⟩ := scale_exact P.R P.R' a sc of hsc hof d col vs hfit hsh h0 hx
    exact ⟨.values c', by simp only [scaleCells, e]; rfl, Or.inr ⟨col, c', vs, ws, rfl, rfl, hsh, h1, h2⟩⟩

/-- … and all -/
theorem readTable_scaled (P : Pandas) (delim : Option Str) (fmt : Fmt) (text : Str) (names tail : List Str) (cols extra : List Cells)
    (as : List Attrs)
    (hn : fmt.names = names ++ tail) (ht : tail = [] ∨ tail = [c!"PLACEHOLDER_0"]) (he : extra = [] ∨ extra.length = tail.length)
    (hplain : ∀ n ∈ names, ¬ c!"PLACEHOLDER" <:+: n) (hlen : cols.length = names.length) (hal : as.length = names.length)
    (hs : fmt.scale = as.map (·.scale) ++ tail.map (fun _ => none)) (ho : fmt.offset = as.map (·.offset) ++ tail.map (fun _ => none))
    (hr : readText P delim fmt text = .ok (cols ++ extra))
    (hcan : ∀ (k : Nat) a c, as[k]? = some a → cols[k]? = some c → CanScale a c)
    (hnd : names.Nodup ∨ ∀ a ∈ as, Unscaled a) :
    ∃ out, readTable P delim fmt text = .ok out ∧ out.map Prod.fst = names ∧ out.length = cols.length ∧
      ∀ (k : Nat) a c q, as[k]? = some a → cols[k]? = some c → out[k]? = some q → ScaledAs a c q.2 := by
  rcases hnd with hnd | hun
  · rw [readTable_named P delim fmt text names tail cols extra hn ht he hplain hlen hr]
    have hnd' : (names ++ tail).Nodup := by
      rcases ht with rfl | rfl
      · simpa using hnd
      · rw [List.nodup_append]
        refine ⟨hnd, by simp, ?_⟩
        intro a ha b hb
        rw [List.mem_singleton] at hb
        rintro rfl
        exact hplain _ ha (by rw [hb]; decide)
    have key : ∀ q ∈ (names.zip cols).zip as, ∃ p, scaleNamed P fmt q.1 = .ok p ∧ p.1 = q.1.1 ∧ ScaledAs q.2 q.1.2 p.2 := by
      intro q hq
      obtain ⟨k, hk⟩ := List.mem_iff_getElem?.1 hq
      rw [List.getElem?_zip_eq_some, List.getElem?_zip_eq_some] at hk
      obtain ⟨⟨k1, k2⟩, k3⟩ := hk
      have kl : k < as.length := (List.getElem?_eq_some_iff.1 k3).1
      obtain ⟨m1, u1, v1⟩ := unify_at P.R fmt.scale k q.2.scale (by
        rw [hs, List.getElem?_append_left (by simpa using kl), List.getElem?_map, k3]; rfl)
      obtain ⟨m2, u2, v2⟩ := unify_at P.R fmt.offset k q.2.offset (by
        rw [ho, List.getElem?_append_left (by simpa using kl), List.getElem?_map, k3]; rfl)
      have hlook := lookup_nodup fmt.names ((unify P.R fmt.scale).zip (unify P.R fmt.offset)) (by rw [hn]; exact hnd') k q.1.1 (m1, m2)
        (by rw [hn, List.getElem?_append_left (by omega)]; exact k1) (by rw [List.getElem?_zip_eq_some]; exact ⟨u1, u2⟩)
      obtain ⟨c', e, hc'⟩ := scaleCells_can P q.2 q.1.2 (hcan k _ _ k3 k2) m1 m2 v1 v2
      refine ⟨(q.1.1, c'), ?_, rfl, hc'⟩
      unfold scaleNamed
      simp only [hlook, Option.getD_some, e]
      rfl
    obtain ⟨out, hm, hall⟩ := Table.mapM_forall (fun q : (Str × Cells) × Attrs => scaleNamed P fmt q.1) ((names.zip cols).zip as)
      (fun q p => p.1 = q.1.1 ∧ ScaledAs q.2 q.1.2 p.2) (by
        intro q hq
        obtain ⟨p, h1, h2⟩ := key q hq
        exact ⟨p, h1, h2⟩)
    have hmap : (names.zip cols).mapM (scaleNamed P fmt) = .ok out := by
      have h1 : names.zip cols = ((names.zip cols).zip as).map Prod.fst := by
        rw [List.map_fst_zip]
        rw [List.length_zip]
        omega
      rw [h1, List.mapM_map]
      exact hm
    have hzl : out.length = names.length := by
      rw [← hall.length_eq, List.length_zip, List.length_zip]
      omega
    refine ⟨out, hmap, ?_, by omega, ?_⟩
    · refine List.ext_getElem (by simpa using hzl) (fun k h1 h2 => ?_)
      rw [List.getElem_map]
      rw [List.forall₂_iff_get] at hall
      have := (hall.2 k (by rw [hall.1]; simpa using h1) (by simpa using h1)).1
      simpa using this
    · intro k a c q h1 h2 h3
      rw [List.forall₂_iff_get] at hall
      have l1 := (List.getElem?_eq_some_iff.1 h1).1
      have l3 := (List.getElem?_eq_some_iff.1 h3).1
      have := (hall.2 k (by rw [hall.1]; exact l3) l3).2
      simp only [List.get_eq_getElem, List.getElem_zip] at this
      rw [List.getElem?_eq_getElem l1] at h1
      rw [List.getElem?_eq_getElem (by omega)] at h2
      rw [List.getElem?_eq_getElem l3] at h3
      cases h1
      cases h2
      cases h3
      exact this
  · refine ⟨names.zip cols, readTable_names P delim fmt text names tail cols extra hn ht he hplain hlen ?_ ?_ hr, ?_, ?_, ?_⟩
    · rw [hs]
      intro n hn'
      rcases List.mem_append.1 hn' with h | h <;> obtain ⟨a, ha, rfl⟩ := List.mem_map.1 h
      · exact (hun a ha).1
      · rfl
    · rw [ho]
      intro n hn'
      rcases List.mem_append.1 hn' with h | h <;> obtain ⟨a, ha, rfl⟩ := List.mem_map.1 h
      · exact (hun a ha).2
      · rfl
    · rw [List.map_fst_zip]
      omega
    · rw [List.length_zip]
      omega
    · intro k a c q h1 h2 h3
      rw [List.getElem?_zip_eq_some] at h3
      rw [h2] at h3
      exact Or.inl ⟨hun a (List.mem_of_getElem? h1), (Option.some.inj h3.2).symm⟩

/-! ### delimited tables -/

theorem padding_eq : padding = pads := rfl

theorem csvColumn_shown (P : Pandas) (cells : List Str) (h : ∀ vs, P.csv cells ≠ .mixed vs) :
    ∃ c, csvColumn P cells = .ok c ∧ Shown P.csv P.missing (Trimmed pads) cells c := by
  unfold csvColumn
  cases hc : P.csv cells with
  | values c => exact ⟨_, rfl, .values hc⟩
  | mixed vs => exact absurd hc (h vs)
  | text =>
    refine ⟨_, rfl, .texts hc ?_⟩
    unfold textCells
    rw [List.map_map, List.forall₂_map_right_iff, List.forall₂_same]
    intro c _
    by_cases hm : P.missing c = true
    · exact Or.inl ⟨hm, by simp [hm]⟩
    · exact Or.inr ⟨by simpa using hm, _, trimmed_strip pads c, by simp [hm, padding_eq]⟩

theorem rectangle_fits {n : Nat} {rows : List (List Str)} (h : Fits n rows) :
    rectangle rows = .ok (n, rows.map (fun r => r ++ List.replicate (n - r.length) [])) := by
  obtain ⟨⟨first, h1, h2⟩, h3⟩ := h
  cases rows with
  | nil => cases h1
  | cons r rest =>
    cases h1
    simp only [rectangle]
    rw [if_neg, h2]
    rw [List.any_eq_true]
    rintro ⟨r, hr, hlt⟩
    have := h3 r (List.mem_cons_of_mem _ hr)
    simp only [decide_eq_true_eq] at hlt
    omega

/-- the columns of the filled up rows -/
theorem columnsOf_field {n : Nat} (rows : List (List Str)) :
    columnsOf n (rows.map (fun r => r ++ List.replicate (n - r.length) [])) = (List.range n).map (field rows) := by
  unfold columnsOf field
  refine List.map_congr_left (fun i _ => ?_)
  rw [List.map_map]
  refine List.map_congr_left (fun r _ => ?_)
  simp only [Function.comp]
  rw [List.getD_eq_getElem?_getD, List.getD_eq_getElem?_getD, List.getElem?_append]
  split
  · rfl
  · rename_i hi
    rw [List.getElem?_replicate, List.getElem?_eq_none (by omega : r.length ≤ i)]
    split <;> rfl

theorem mapM_error {α β ε : Type} (f : α → Except ε β) (l : List α) (e : ε) (h : ∀ a ∈ l, ∀ e', f a = .error e' → e' = e)
    (hex : ∃ a ∈ l, f a = .error e) : l.mapM f = .error e := by
  induction l with
  | nil =>
    obtain ⟨a, ha, _⟩ := hex
    cases ha
  | cons a l ih =>
    rw [List.mapM_cons]
    cases hf : f a with
    | error e' =>
      rw [h a List.mem_cons_self e' hf]
      rfl
    | ok b =>
      have : l.mapM f = .error e := by
        refine ih (fun x hx => h x (List.mem_cons_of_mem _ hx)) ?_
        obtain ⟨x, hx, he⟩ := hex
        rcases List.mem_cons.1 hx with rfl | hx
        · rw [hf] at he
          cases he
        · exact ⟨x, hx, he⟩
      show (do let bs ← l.mapM f; pure (b :: bs)) = _
      rw [this]
      rfl

theorem readDelimited_fits (P : Pandas) {sep : Char} (hp : Plain sep) {text : Str} {lines : List Str} (h : HasLines text lines)
    {rows : List (List Str)} (hr : Delimited sep lines rows) {n : Nat} (hf : Fits n rows) (names : List Str)
    (hn : n + (names.filter (fun m => contains m c!"PLACEHOLDER")).length = names.length) :
    readDelimited P sep names text = ((List.range n).map (field rows)).mapM (csvColumn P) := by
  unfold readDelimited
  rw [tokenize_text hp h hr]
  simp only [rectangle_fits hf]
  rw [if_neg (by omega), columnsOf_field]

theorem mapM_csv (P : Pandas) (cells : List (List Str)) (h : ∀ c ∈ cells, ∀ vs, P.csv c ≠ .mixed vs) :
    ∃ cols, cells.mapM (csvColumn P) = .ok cols ∧ List.Forall₂ (Shown P.csv P.missing (Trimmed pads)) cells cols := by
  induction cells with
  | nil => exact ⟨[], rfl, .nil⟩
  | cons c cells ih =>
    obtain ⟨cols, h1, h2⟩ := ih (fun x hx => h x (List.mem_cons_of_mem _ hx))
    obtain ⟨d, h3, h4⟩ := csvColumn_shown P c (h c List.mem_cons_self)
    exact ⟨d :: cols, by rw [List.mapM_cons, h3, h1]; rfl, .cons h4 h2⟩

/-- reading a table that has as many fields in its lines as it has columns -/
theorem readText_delimited (P : Pandas) {delim : Option Str} {sep : Char} (hsep : Separates delim sep) {text : Str} {lines : List Str}
    (h : HasLines text lines) {rows : List (List Str)} (hr : Delimited sep lines rows) {n : Nat} (hf : Fits n rows) (fmt : Fmt)
    (hn : n + (fmt.names.filter (fun m => contains m c!"PLACEHOLDER")).length = fmt.names.length)
    (hm : ∀ i < n, ∀ vs, P.csv (field rows i) ≠ .mixed vs) :
    ∃ cols, readText P delim fmt text = .ok cols ∧
      List.Forall₂ (fun i c => Shown P.csv P.missing (Trimmed pads) (field rows i) c) (List.range n) cols := by
  obtain ⟨hd, hp⟩ := separates_ok hsep
  obtain ⟨cols, h1, h2⟩ := mapM_csv P ((List.range n).map (field rows)) (by
    intro c hc
    obtain ⟨i, hi, rfl⟩ := List.mem_map.1 hc
    exact hm i (List.mem_range.1 hi))
  refine ⟨cols, ?_, List.forall₂_map_left_iff.1 h2⟩
  unfold readText
  rw [hd]
  simp only [readDelimited_fits P hp h hr hf fmt.names hn, h1]

theorem count_placeholders {names tail : List Str} (h : ∀ n ∈ names, ¬ c!"PLACEHOLDER" <:+: n)
    (ht : tail = [] ∨ tail = [c!"PLACEHOLDER_0"]) :
    ((names ++ tail).filter (fun m => contains m c!"PLACEHOLDER")).length = tail.length := by
  rw [List.filter_append, List.filter_eq_nil_iff.2, List.nil_append]
  · rcases ht with rfl | rfl
    · rfl
    · decide
  · intro n hn hc
    exact h n hn ((Datatypes.contains_iff _ _).1 hc)

theorem tail_cases {names : List Str} {specs : List (Int × Nat)} (h : Tail names specs) :
    (names = [] ∨ names = [c!"PLACEHOLDER_0"]) ∧ specs.length = names.length ∧ ∀ s ∈ specs, 0 ≤ s.1 := by
  rcases h with ⟨rfl, rfl⟩ | ⟨rfl, s, rfl, hs⟩
  · exact ⟨Or.inl rfl, rfl, by simp⟩
  · exact ⟨Or.inr rfl, rfl, by simpa using hs⟩

theorem columnNames_length (p : Int) (es : List Format.Spec.Entry) : (columnNames p es).length = (slots p es).length := by
  unfold columnNames
  rw [reindexNames_length, List.length_map]

theorem shown_at {P : Pandas} {rows : List (List Str)} {n : Nat} {cols : List Cells}
    (h : List.Forall₂ (fun i c => Shown P.csv P.missing (Trimmed pads) (field rows i) c) (List.range n) cols) :
    ∀ (k : Nat) c, cols[k]? = some c → Shown P.csv P.missing (Trimmed pads) (field rows k) c := by
  intro k c hc
  rw [List.forall₂_iff_get] at h
  have hk := (List.getElem?_eq_some_iff.1 hc).1
  have := h.2 k (by rw [h.1]; exact hk) hk
  rw [List.getElem?_eq_getElem hk] at hc
  cases hc
  simpa using this

/-- **C82.** A text table whose lines (those that are not blank) have as many fields as the label has columns: column `k` has the
name of the label and shows the `k`th fields, as pandas understands them, times SCALING_FACTOR plus OFFSET. A field may be
between quotes, and then have separators and doubled quotes in it; lines that are too short have nothing in their last columns.
Texts lose the padding (blanks, tabs, quotes, commas) around them. -/
theorem C82_table (P : Pandas) (b : Table.Block) (first : Col) (rest : List Format.Spec.Entry) (h : Laid b first rest)
    (ht : IsText b (.col first :: rest)) (delim : Option Str) (sep : Char) (hsep : Separates delim sep) (content : Str) (p : TablePos)
    (lines : List Str) (hl : TableLines content p lines) (rows : List (List Str)) (hr : Delimited sep lines rows)
    (hf : Fits (slots (b.rowPrefix.getD 0) (.col first :: rest)).length rows)
    (hm : ∀ i < (slots (b.rowPrefix.getD 0) (.col first :: rest)).length, ∀ vs, P.csv (field rows i) ≠ .mixed vs)
    (hscale : ∀ (k : Nat) s, (slots (b.rowPrefix.getD 0) (.col first :: rest))[k]? = some s →
      ∀ c, Shown P.csv P.missing (Trimmed pads) (field rows k) c → CanScale s.attrs c)
    (hnd : (columnNames (b.rowPrefix.getD 0) (.col first :: rest)).Nodup ∨
      ∀ s ∈ slots (b.rowPrefix.getD 0) (.col first :: rest), Unscaled s.attrs) :
    ∃ out, readAscii P b delim content p = .ok (some out) ∧
      out.map Prod.fst = columnNames (b.rowPrefix.getD 0) (.col first :: rest) ∧
      ∀ (k : Nat) s q, (slots (b.rowPrefix.getD 0) (.col first :: rest))[k]? = some s → out[k]? = some q →
        ∃ c, Shown P.csv P.missing (Trimmed pads) (field rows k) c ∧ ScaledAs s.attrs c q.2 := by
  obtain ⟨names, specs, htail, hfmt⟩ := format_laid b first rest h ht
  obtain ⟨hnames, hslen, _⟩ := tail_cases htail
  obtain ⟨text, lines', htext, hlines, hfull⟩ := textOf_lines hl
  have hlenN := columnNames_length (b.rowPrefix.getD 0) (.col first :: rest)
  have hP := h.plain
  generalize columnNames (b.rowPrefix.getD 0) (.col first :: rest) = N at *
  generalize slots (b.rowPrefix.getD 0) (.col first :: rest) = S at *
  unfold readAscii
  rw [hfmt]
  simp only [htext]
  obtain ⟨cols, h1, h2⟩ := readText_delimited P hsep hlines (delimited_full hr hfull) hf (laidFmt N S names specs)
    (by simp only [laidFmt, count_placeholders hP hnames, List.length_append]; omega) hm
  have hclen : cols.length = N.length := by rw [← h2.length_eq, List.length_range, hlenN]
  have hshown := shown_at h2
  obtain ⟨out, g1, g2, g3, g4⟩ := readTable_scaled P delim (laidFmt N S names specs) text N names cols [] (S.map (·.attrs)) rfl hnames
    (Or.inl rfl) hP hclen (by rw [List.length_map, hlenN]) (by simp only [laidFmt, List.map_map]; rfl)
    (by simp only [laidFmt, List.map_map]; rfl) (by rw [List.append_nil]; exact h1)
    (by
      intro k a c ha hc
      rw [List.getElem?_map] at ha
      obtain ⟨s, hs, rfl⟩ := Option.map_eq_some_iff.1 ha
      exact hscale k s hs c (hshown k c hc))
    (hnd.imp id (by
      intro hu a ha
      obtain ⟨s, hs, rfl⟩ := List.mem_map.1 ha
      exact hu s hs))
  rw [g1]
  refine ⟨out, rfl, g2, ?_⟩
  intro k s q hs hq
  have hk : k < cols.length := by
    rw [← g3]
    exact (List.getElem?_eq_some_iff.1 hq).1
  have hc := List.getElem?_eq_getElem hk
  exact ⟨_, hshown k _ hc, g4 k s.attrs _ q (by rw [List.getElem?_map, hs]; rfl) hc hq⟩

/-! ### spreadsheets -/

theorem fields_all (fields : List Field) : fields.foldl (fun acc f => formatOfFields.appendObj' f acc) [] =
    fields.flatMap (fun f => List.replicate (copies f.items) f) := by
  have aux : ∀ acc : List Field, fields.foldl (fun acc f => formatOfFields.appendObj' f acc) acc =
      acc ++ fields.flatMap (fun f => List.replicate (copies f.items) f) := by
    induction fields with
    | nil => simp
    | cons f fields ih =>
      intro acc
      rw [List.foldl_cons, ih, List.flatMap_cons, ← List.append_assoc]
      congr 1
      unfold formatOfFields.appendObj' copies
      cases f.items with
      | none => rfl
      | some n =>
        simp only [appendRepeated]
        split
        · rw [Nat.max_eq_left (by omega)]
          congr 1
          rw [← List.flatMap_id, List.flatMap_replicate]
          simp
        · rw [Nat.max_eq_right (by omega)]
          rfl
  simpa using aux []

theorem fields_format (bytes : Bool) (fields : List Field)
    (hres : (fields.flatMap (fun f => List.replicate (copies f.items) f.name)).count c!"RESERVED" ≤ 1) :
    ∃ fmt, formatOfFields bytes fields = .ok fmt ∧ fmt.names = fieldNames fields ∧
      fmt.places = (if bytes then .unplaced else .unknown) ∧
      fmt.scale = (fieldAttrs fields).map (·.scale) ∧ fmt.offset = (fieldAttrs fields).map (·.offset) := by
  have hn : (fields.flatMap (fun f => List.replicate (copies f.items) f)).map (·.name) =
      fields.flatMap (fun f => List.replicate (copies f.items) f.name) := by
    rw [List.map_flatMap]
    simp
  unfold formatOfFields
  simp only [fields_all, hn]
  rw [if_neg (by omega)]
  refine ⟨_, rfl, rfl, rfl, ?_, ?_⟩
  · simp only [fieldAttrs, List.map_flatMap, List.map_replicate]
  · simp only [fieldAttrs, List.map_flatMap, List.map_replicate]

theorem fields_length (fields : List Field) : (fieldAttrs fields).length = (fieldNames fields).length := by
  unfold fieldAttrs fieldNames
  rw [reindexNames_length, List.length_flatMap, List.length_flatMap]
  simp

/-- **C82 (spreadsheets).** The same for SPREADSHEETs, where FIELDs with ITEMS are so many columns. -/
theorem C82_spreadsheet (P : Pandas) (bytes : Bool) (fields : List Field)
    (hres : (fields.flatMap (fun f => List.replicate (copies f.items) f.name)).count c!"RESERVED" ≤ 1)
    (hnames : ∀ n ∈ fieldNames fields, ¬ c!"PLACEHOLDER" <:+: n) (delim : Option Str) (sep : Char) (hsep : Separates delim sep)
    (content : Str) (p : TablePos) (lines : List Str) (hl : TableLines content p lines) (rows : List (List Str))
    (hr : Delimited sep lines rows) (hf : Fits (fieldNames fields).length rows)
    (hm : ∀ i < (fieldNames fields).length, ∀ vs, P.csv (field rows i) ≠ .mixed vs)
    (hscale : ∀ (k : Nat) a, (fieldAttrs fields)[k]? = some a →
      ∀ c, Shown P.csv P.missing (Trimmed pads) (field rows k) c → CanScale a c)
    (hnd : (fieldNames fields).Nodup ∨ ∀ a ∈ fieldAttrs fields, Unscaled a) :
    ∃ out, readSpreadsheet P bytes fields delim content p = .ok out ∧ out.map Prod.fst = fieldNames fields ∧
      ∀ (k : Nat) a q, (fieldAttrs fields)[k]? = some a → out[k]? = some q →
        ∃ c, Shown P.csv P.missing (Trimmed pads) (field rows k) c ∧ ScaledAs a c q.2 := by
  obtain ⟨text, lines', htext, hlines, hfull⟩ := textOf_lines hl
  obtain ⟨fmt, hfmt, hfn, _, hsc, hof⟩ := fields_format bytes fields hres
  unfold readSpreadsheet
  rw [hfmt]
  simp only [htext]
  have hc := count_placeholders (tail := []) hnames (Or.inl rfl)
  rw [List.append_nil] at hc
  obtain ⟨cols, h1, h2⟩ := readText_delimited P hsep hlines (delimited_full hr hfull) hf fmt (by rw [hfn, hc]; rfl) hm
  have hclen : cols.length = (fieldNames fields).length := by rw [← h2.length_eq, List.length_range]
  have hshown := shown_at h2
  obtain ⟨out, g1, g2, g3, g4⟩ := readTable_scaled P delim fmt text (fieldNames fields) [] cols [] (fieldAttrs fields)
    (by rw [hfn, List.append_nil]) (Or.inl rfl) (Or.inl rfl) hnames hclen (fields_length fields) (by rw [hsc]; simp) (by rw [hof]; simp)
    (by rw [List.append_nil]; exact h1) (fun k a c ha hc => hscale k a ha c (hshown k c hc)) hnd
  rw [g1]
  refine ⟨out, rfl, g2, ?_⟩
  intro k a q ha hq
  have hk : k < cols.length := by
    rw [← g3]
    exact (List.getElem?_eq_some_iff.1 hq).1
  have hc := List.getElem?_eq_getElem hk
  exact ⟨_, hshown k _ hc, g4 k a _ q ha hc hq⟩

/-! ### fixed-width tables -/

/-- reading as a delimited table fails -/
theorem readDelimited_not (P : Pandas) {sep : Char} (hp : Plain sep) {text : Str} {lines : List Str} (h : HasLines text lines)
    {rows : List (List Str)} (hr : Delimited sep lines rows) (n : Nat) (hne : rows ≠ [])
    (hnot : ¬ Fits n rows ∨ ∃ i < n, ∃ vs, P.csv (field rows i) = .mixed vs) (names : List Str)
    (hn : n + (names.filter (fun m => contains m c!"PLACEHOLDER")).length = names.length) :
    ∃ e, readDelimited P sep names text = .error e ∧ e ≠ .empty := by
  by_cases hf : Fits n rows
  · obtain ⟨i, hi, vs, hvs⟩ := hnot.resolve_left (fun h => h hf)
    refine ⟨.attribute, ?_, by decide⟩
    rw [readDelimited_fits P hp h hr hf names hn]
    refine mapM_error _ _ _ ?_ ⟨field rows i, List.mem_map_of_mem (List.mem_range.2 hi), by unfold csvColumn; rw [hvs]⟩
    intro c _ e' he
    unfold csvColumn at he
    cases hc : P.csv c <;> rw [hc] at he <;> cases he
    rfl
  · cases rows with
    | nil => exact absurd rfl hne
    | cons r rest =>
      unfold readDelimited
      rw [tokenize_text hp h hr]
      simp only [rectangle]
      by_cases ha : rest.any (fun r' => r.length < r'.length) = true
      · rw [if_pos ha]
        exact ⟨.parser, rfl, by decide⟩
      · rw [if_neg ha]
        refine ⟨.index, ?_, by decide⟩
        simp only
        rw [if_pos]
        intro he
        refine hf ⟨⟨r, rfl, by omega⟩, fun r' hr' => ?_⟩
        rcases List.mem_cons.1 hr' with rfl | hr'
        · omega
        · by_contra hlt
          exact ha (List.any_eq_true.2 ⟨r', hr', by simp only [decide_eq_true_eq]; omega⟩)

theorem columnsOf_map (kept : List Str) (specs : List (Int × Nat)) :
    columnsOf specs.length (kept.map (fun l => specs.map (cell l))) = specs.map (fun s => kept.map (fun l => cell l s)) := by
  unfold columnsOf
  apply List.ext_getElem
  · simp
  · intro i h1 h2
    simp only [List.length_map, List.length_range] at h1 h2
    simp only [List.getElem_map, List.getElem_range, List.map_map]
    refine List.map_congr_left (fun l _ => ?_)
    simp only [Function.comp, List.getD_eq_getElem?_getD]
    rw [List.getElem?_eq_getElem (by simpa using h2)]
    simp

theorem fwfColumn_shown (P : Pandas) (cells : List Str) : Shown P.fwf P.missing Eq cells (fwfColumn P cells) := by
  unfold fwfColumn
  cases hc : P.fwf cells with
  | values c => exact .values hc
  | mixed vs => exact .mixed hc
  | text =>
    refine .texts hc ?_
    unfold textCells
    rw [List.forall₂_map_right_iff, List.forall₂_same]
    intro c _
    by_cases hm : P.missing c = true
    · exact Or.inl ⟨hm, by simp [hm]⟩
    · exact Or.inr ⟨by simpa using hm, c, rfl, by simp [hm]⟩

theorem ink_keeps (specs : List (Int × Nat)) (l : Str) (s : Int × Nat) (hs : s ∈ specs) (c : Char) (hc : c ∈ (l.drop s.1.toNat).take s.2)
    (hi : Ink c) (hn : c ≠ '\r' ∧ c ≠ '\n') : keeps specs l = true := by
  unfold keeps
  rw [List.any_eq_true]
  refine ⟨cell l s, List.mem_map_of_mem hs, ?_⟩
  have : c ∈ cell l s := by
    refine mem_stripChars hc ?_
    intro h
    rcases List.mem_cons.1 h with h | h
    · exact hn.1 h
    · rcases List.mem_cons.1 h with h | h
      · exact hn.2 h
      · exact hi.1 h
  simpa using strip_ne_nil this hi.2

theorem no_ink_keeps (specs : List (Int × Nat)) (l : Str) (h : ∀ c ∈ l, c ∈ pads) : keeps specs l = false := by
  unfold keeps
  rw [List.any_eq_false]
  intro c hc
  obtain ⟨s, _, rfl⟩ := List.mem_map.1 hc
  have : cell l s = [] := by
    refine stripChars_all (fun c hc => ?_)
    have := h c (List.mem_of_mem_drop (List.mem_of_mem_take hc))
    exact List.mem_cons_of_mem _ (List.mem_cons_of_mem _ this)
  rw [this]
  simp [strip, rstrip, lstrip]

theorem oneLine_lines {text : Str} {lines : List Str} (h : HasLines text lines) : ∀ l ∈ lines, OneLine l := by
  induction h with
  | nil => simp
  | last hl _ => simpa using hl
  | line hl _ _ ih =>
    intro x hx
    rcases List.mem_cons.1 hx with rfl | hx
    · exact hl
    · exact ih x hx

theorem oneLine_table {content : Str} {p : TablePos} {lines : List Str} (h : TableLines content p lines) : ∀ l ∈ lines, OneLine l := by
  cases h with
  | bytes h => exact oneLine_lines h
  | bytesToEnd h => exact oneLine_lines h
  | rows h _ => exact fun l hl => oneLine_lines h l (List.mem_of_mem_drop (List.mem_of_mem_take hl))
  | rowsToEnd h _ => exact fun l hl => oneLine_lines h l (List.mem_of_mem_drop hl)

theorem oneLine_sub {l : Str} (h : OneLine l) (a n : Nat) : OneLine ((l.drop a).take n) :=
  ⟨fun hc => h.1 (List.mem_of_mem_drop (List.mem_of_mem_take hc)), fun hc => h.2 (List.mem_of_mem_drop (List.mem_of_mem_take hc))⟩

/-- **C81.** A text table whose lines do not have as many fields as the label has columns (or have a column of truth values that
are missing in places) is read by the places of the label: every column shows the characters of its bytes in every line, without
the padding around them, as pandas understands them, times SCALING_FACTOR plus OFFSET. -/
theorem C81_table (P : Pandas) (b : Table.Block) (first : Col) (rest : List Format.Spec.Entry) (h : Laid b first rest)
    (ht : IsText b (.col first :: rest)) (delim : Option Str) (sep : Char) (hsep : Separates delim sep) (content : Str) (p : TablePos)
    (lines : List Str) (hl : TableLines content p lines) (rows : List (List Str)) (hr : Delimited sep lines rows) (hne : rows ≠ [])
    (hnot : ¬ Fits (slots (b.rowPrefix.getD 0) (.col first :: rest)).length rows ∨
      ∃ i < (slots (b.rowPrefix.getD 0) (.col first :: rest)).length, ∃ vs, P.csv (field rows i) = .mixed vs)
    (hink : ∃ l ∈ lines, ∃ s ∈ slots (b.rowPrefix.getD 0) (.col first :: rest), ∃ c ∈ charsAt l s, Ink c)
    (hscale : ∀ keep, Keeps (slots (b.rowPrefix.getD 0) (.col first :: rest)) keep →
      ∀ s ∈ slots (b.rowPrefix.getD 0) (.col first :: rest), ∀ c, ShownAt P lines keep s c → CanScale s.attrs c)
    (hnd : (columnNames (b.rowPrefix.getD 0) (.col first :: rest)).Nodup ∨
      ∀ s ∈ slots (b.rowPrefix.getD 0) (.col first :: rest), Unscaled s.attrs) :
    ∃ out keep, readAscii P b delim content p = .ok (some out) ∧ Keeps (slots (b.rowPrefix.getD 0) (.col first :: rest)) keep ∧
      out.map Prod.fst = columnNames (b.rowPrefix.getD 0) (.col first :: rest) ∧
      ∀ (k : Nat) s q, (slots (b.rowPrefix.getD 0) (.col first :: rest))[k]? = some s → out[k]? = some q →
        ∃ c, ShownAt P lines keep s c ∧ ScaledAs s.attrs c q.2 := by
  obtain ⟨names, specs, htail, hfmt⟩ := format_laid b first rest h ht
  obtain ⟨hnames, hslen, hspos⟩ := tail_cases htail
  obtain ⟨text, lines', htext, hlines, hfull⟩ := textOf_lines hl
  have hone := oneLine_table hl
  have hlenN := columnNames_length (b.rowPrefix.getD 0) (.col first :: rest)
  have hP := h.plain
  have hoff := h.offsets
  generalize columnNames (b.rowPrefix.getD 0) (.col first :: rest) = N at *
  generalize slots (b.rowPrefix.getD 0) (.col first :: rest) = S at *
  obtain ⟨hd, hp⟩ := separates_ok hsep
  obtain ⟨e, he, hee⟩ := readDelimited_not P hp hlines (delimited_full hr hfull) S.length hne hnot (N ++ names)
    (by rw [count_placeholders hP hnames, List.length_append]; omega)
  have hall : ∀ s ∈ S.map (fun s => (s.off, s.size)) ++ specs, 0 ≤ s.1 := by
    intro s hs
    rcases List.mem_append.1 hs with hs | hs
    · obtain ⟨x, hx, rfl⟩ := List.mem_map.1 hs
      exact hoff x hx
    · exact hspos s hs
  have hkeep : ∀ l, (∃ s ∈ S, ∃ c ∈ charsAt l s, Ink c) → OneLine l →
      keeps (S.map (fun s => (s.off, s.size)) ++ specs) l = true := by
    rintro l ⟨s, hs, c, hc, hi⟩ hol
    have hcl : c ∈ l := List.mem_of_mem_drop (List.mem_of_mem_take hc)
    exact ink_keeps _ l (s.off, s.size) (List.mem_append_left _ (List.mem_map_of_mem hs)) c hc hi
      ⟨fun e => hol.2 (e ▸ hcl), fun e => hol.1 (e ▸ hcl)⟩
  have hrows : fixedRows (S.map (fun s => (s.off, s.size)) ++ specs) text =
      (lines.filter (keeps (S.map (fun s => (s.off, s.size)) ++ specs))).map
        (fun l => (S.map (fun s => (s.off, s.size)) ++ specs).map (cell l)) := by
    rw [fixedRows_lines hlines _ hall, filter_full (keeps_nil _) hfull]
  have hfixed : readFixed P (S.map (fun s => (s.off, s.size)) ++ specs) text = some
      (((S.map (fun s => (s.off, s.size)) ++ specs).map (fun s =>
        (lines.filter (keeps (S.map (fun s => (s.off, s.size)) ++ specs))).map (fun l => cell l s))).map (fwfColumn P)) := by
    unfold readFixed
    rw [hrows]
    have hne' : lines.filter (keeps (S.map (fun s => (s.off, s.size)) ++ specs)) ≠ [] := by
      obtain ⟨l, hl', hx⟩ := hink
      intro e
      have : l ∈ lines.filter (keeps (S.map (fun s => (s.off, s.size)) ++ specs)) :=
        List.mem_filter.2 ⟨hl', hkeep l hx (hone l hl')⟩
      rw [e] at this
      cases this
    rw [← columnsOf_map]
    generalize lines.filter (keeps (S.map (fun s => (s.off, s.size)) ++ specs)) = K at hne' ⊢
    cases K with
    | nil => exact absurd rfl hne'
    | cons k K => rfl
  have hread : readText P delim (laidFmt N S names specs) text = .ok
      ((S.map (fun s => fwfColumn P ((lines.filter (keeps (S.map (fun s => (s.off, s.size)) ++ specs))).map
        (fun l => cell l (s.off, s.size))))) ++
      specs.map (fun s => fwfColumn P ((lines.filter (keeps (S.map (fun s => (s.off, s.size)) ++ specs))).map (fun l => cell l s)))) := by
    unfold readText
    rw [hd]
    have he' : readDelimited P sep (laidFmt N S names specs).names text = .error e := he
    simp only [he']
    have hpl : (laidFmt N S names specs).places = .known (S.map (fun s => (s.off, s.size)) ++ specs) := rfl
    rw [hpl]
    simp only [hfixed]
    cases e with
    | empty => exact absurd rfl hee
    | _ =>
      simp only [List.map_append, List.map_map]
      rfl
  have hK : Keeps S (keeps (S.map (fun s => (s.off, s.size)) ++ specs)) := ⟨hkeep, no_ink_keeps _⟩
  have hshown : ∀ s ∈ S, ShownAt P lines (keeps (S.map (fun s => (s.off, s.size)) ++ specs)) s
      (fwfColumn P ((lines.filter (keeps (S.map (fun s => (s.off, s.size)) ++ specs))).map (fun l => cell l (s.off, s.size)))) := by
    intro s _
    refine ⟨_, ?_, fwfColumn_shown P _⟩
    rw [List.forall₂_map_right_iff, List.forall₂_same]
    intro l hl'
    exact trimmed_pads (trimmed_strip _ _) (oneLine_sub (hone l (List.mem_filter.1 hl').1) _ _)
  obtain ⟨out, g1, g2, g3, g4⟩ := readTable_scaled P delim (laidFmt N S names specs) text N names _ _ (S.map (·.attrs)) rfl hnames
    (Or.inr (by rw [List.length_map, hslen])) hP (by rw [List.length_map, hlenN]) (by rw [List.length_map, hlenN])
    (by simp only [laidFmt, List.map_map]; rfl) (by simp only [laidFmt, List.map_map]; rfl) hread
    (by
      intro k a c ha hc
      rw [List.getElem?_map] at ha hc
      obtain ⟨s, hs, rfl⟩ := Option.map_eq_some_iff.1 ha
      rw [hs] at hc
      cases hc
      exact hscale _ hK s (List.mem_of_getElem? hs) _ (hshown s (List.mem_of_getElem? hs)))
    (hnd.imp id (by
      intro hu a ha
      obtain ⟨s, hs, rfl⟩ := List.mem_map.1 ha
      exact hu s hs))
  unfold readAscii
  rw [hfmt]
  simp only [htext, g1]
  refine ⟨out, _, rfl, hK, g2, ?_⟩
  intro k s q hs hq
  exact ⟨_, hshown s (List.mem_of_getElem? hs), g4 k s.attrs _ q (by rw [List.getElem?_map, hs]; rfl)
    (by rw [List.getElem?_map, hs]; rfl) hq⟩

end Verif.Ascii
