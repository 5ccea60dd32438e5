/-
C134, C135: tables of Mars Climate Sounder.
-/
import Verif.Spec.McsTable
import Verif.Props.Files
import Verif.Props.Literal
import Verif.Props.DesktopXml
import Verif.Lemmas.Utf8

namespace Verif.McsTable
open Verif.Py Verif.McsTable.Spec

/-! ### fields -/

theorem strip_wrap {a x b : Str} (ha : ∀ c ∈ a, isSpace c = true) (hb : ∀ c ∈ b, isSpace c = true)
    (hx : ∀ c, x.head? = some c ∨ x.getLast? = some c → isSpace c = false) : strip (a ++ x ++ b) = x := by
  by_cases hn : x = []
  · subst hn
    rw [List.append_nil]
    have : (strip (a ++ b)).isEmpty = true := (Xml.strip_isEmpty _).mpr (by
      intro c hc
      rcases List.mem_append.mp hc with hc | hc
      · exact ha c hc
      · exact hb c hc)
    simpa using this
  · exact (DesktopXml.trimmed_unique ⟨a, b, rfl, ha, hb, hn, fun c hc => hx c (.inl hc), fun c hc => hx c (.inr hc)⟩).symm

theorem stripChars_around {cs : List Char} {a x b : Str} (ha : ∀ c ∈ a, c ∈ cs) (hb : ∀ c ∈ b, c ∈ cs)
    (hx : ∀ c, x.head? = some c ∨ x.getLast? = some c → c ∉ cs) : Literal.stripChars cs (a ++ x ++ b) = x := by
  by_cases hn : x = []
  · subst hn
    rw [List.append_nil]
    unfold Literal.stripChars
    have h : (a ++ b).dropWhile (· ∈ cs) = [] := List.dropWhile_eq_nil_iff.mpr (by
      intro c hc
      rcases List.mem_append.mp hc with hc | hc
      · simpa using ha c hc
      · simpa using hb c hc)
    rw [h]
    rfl
  · exact Literal.stripChars_wrap ha hb (fun c hc => hx c (.inl hc)) (fun c hc => hx c (.inr hc)) hn

theorem stripChars_core {cs : List Char} {x : Str} (hx : ∀ c, x.head? = some c ∨ x.getLast? = some c → c ∉ cs) :
    Literal.stripChars cs x = x := by
  have := stripChars_around (a := []) (b := []) (by simp) (by simp) hx
  simpa using this

theorem not_blank {c : Char} (h : isSpace c = false) : c ≠ ' ' := by
  rintro rfl
  revert h
  decide

theorem clean_content {raw core : Str} (h : Content raw core) : clean raw = core := by
  unfold clean
  cases h with
  | plain a _ b ha hb hc =>
    rw [strip_wrap ha hb (fun c h => (hc c h).1), stripChars_core (cs := ['"']) (x := core) (fun c h => by simpa using (hc c h).2),
      stripChars_core (cs := [' ']) (x := core) (fun c h => by simpa using not_blank (hc c h).1)]
  | quoted a s _ s' b ha hb hs hs' hc' =>
    have h1 : a ++ '"' :: (s ++ core ++ s') ++ '"' :: b = a ++ ('"' :: (s ++ core ++ s') ++ ['"']) ++ b := by simp
    rw [h1, strip_wrap ha hb]
    · by_cases he : core = []
      · subst he
        rw [List.append_nil]
        cases hss : s ++ s' with
        | nil => rfl
        | cons x t =>
          have hall : ∀ c ∈ x :: t, c = ' ' := by
            intro c hc
            rw [← hss] at hc
            rcases List.mem_append.mp hc with hc | hc
            · exact hs c hc
            · exact hs' c hc
          have := stripChars_around (cs := ['"']) (a := ['"']) (x := x :: t) (b := ['"']) (by simp) (by simp) (by
            intro c hc
            have hm : c ∈ x :: t := by
              rcases hc with hc | hc
              · exact List.mem_of_mem_head? hc
              · exact List.mem_of_getLast? hc
            rw [hall c hm]
            decide)
          rw [show ('"' :: (x :: t) ++ ['"'] : Str) = ['"'] ++ (x :: t) ++ ['"'] from rfl, this]
          have h2 := stripChars_around (cs := [' ']) (a := x :: t) (x := []) (b := []) (by simpa using hall) (by simp) (by simp)
          simpa using h2
      · have h2 : Literal.stripChars ['"'] ('"' :: (s ++ core ++ s') ++ ['"']) = s ++ core ++ s' := by
          have := stripChars_around (cs := ['"']) (a := ['"']) (x := s ++ core ++ s') (b := ['"']) (by simp) (by simp) (by
            intro c hc
            have : c = ' ' ∨ c ≠ '"' := by
              rcases hc with hc | hc
              · cases s with
                | nil =>
                  rw [List.nil_append, List.head?_append_of_ne_nil _ he] at hc
                  exact .inr (hc' c (.inl hc)).2
                | cons x s => cases hc; exact .inl (hs _ List.mem_cons_self)
              · cases hr : s'.getLast? with
                | none =>
                  rw [List.getLast?_eq_none_iff.mp hr, List.append_nil, List.getLast?_append_of_ne_nil _ he] at hc
                  exact .inr (hc' c (.inr hc)).2
                | some y =>
                  rw [List.getLast?_append, hr] at hc
                  cases hc
                  exact .inl (hs' _ (List.mem_of_getLast? hr))
            rcases this with rfl | h
            · decide
            · simpa using h)
          exact this
        rw [h2]
        exact stripChars_around (by simpa using hs) (by simpa using hs') (fun c h => by simpa using not_blank (hc' c h).1)
    · intro c h
      have : c = '"' := by
        rcases h with h | h
        · simpa using h.symm
        · rw [List.getLast?_append] at h
          simpa using h.symm
      subst this
      decide

/-! ### lines -/

theorem ascii_decode {s : Str} {b : List UInt8} (h : Ascii s b) : decodeAscii b = s := by
  induction h with
  | nil => rfl
  | @cons c x s b hc h ih =>
    unfold decodeAscii at ih ⊢
    rw [List.map_cons, ih, if_pos (by rw [UInt8.lt_iff_toNat_lt]; exact hc.2), hc.1, Char.ofNat_toNat]

theorem decode_break (x : UInt8) : (if x < 128 then Char.ofNat x.toNat else Char.ofNat 0xFFFD) = '\n' ↔ x = 10 := by
  constructor
  · intro h
    by_cases hx : x < 128
    · rw [if_pos hx] at h
      have h1 : x.toNat < 128 := UInt8.lt_iff_toNat_lt.mp hx
      have h2 := congrArg Char.toNat h
      rw [Label.toNat_ofNat_char _ (.inl (by omega))] at h2
      exact UInt8.toNat_inj.mp h2
    · rw [if_neg hx] at h
      exact absurd h (by decide)
  · rintro rfl
    decide

theorem lines_eq (b : List UInt8) : lines b = splitOn '\n' (decodeAscii b) := by
  unfold lines
  induction b with
  | nil => rfl
  | cons x b ih =>
    rw [show decodeAscii (x :: b) = (if x < 128 then Char.ofNat x.toNat else Char.ofNat 0xFFFD) :: decodeAscii b from rfl, splitOn,
      Pds4Table.splitByte]
    by_cases hx : x = 10
    · rw [if_pos hx, if_pos ((decode_break x).mpr hx), List.map_cons, ih]
      rfl
    · rw [if_neg hx, if_neg (fun h => hx ((decode_break x).mp h)), ← ih]
      cases Pds4Table.splitByte 10 b with
      | nil => rfl
      | cons w ws => rfl

theorem splitOn_plain {sep : Char} {s : Str} (h : sep ∉ s) : splitOn sep s = [s] := by
  induction s with
  | nil => rfl
  | cons c s ih =>
    rw [splitOn, if_neg (fun hc => h (by rw [hc]; exact List.mem_cons_self)), ih (fun hm => h (List.mem_cons_of_mem _ hm))]

theorem splitOn_lines (ls : List Str) (h : ∀ l ∈ ls, '\n' ∉ l) (tail : Str) :
    splitOn '\n' (ls.flatMap (fun l => l ++ ['\n']) ++ tail) = ls ++ splitOn '\n' tail := by
  induction ls with
  | nil => rfl
  | cons l ls ih =>
    rw [List.flatMap_cons, List.append_assoc, List.append_assoc, List.singleton_append, Files.splitOn_append_gen,
      splitOn_plain (h l List.mem_cons_self), List.singleton_append, ih (fun x hx => h x (List.mem_cons_of_mem _ hx))]
    rfl

/-- the lines of a record -/
def recordLines (r : Record) : List Str := join [','] r.head :: r.rows.map (join [','])

theorem text_lines (rs : List Record) : text rs = (rs.flatMap recordLines).flatMap (fun l => l ++ ['\n']) := by
  unfold text
  induction rs with
  | nil => rfl
  | cons r rs ih =>
    rw [List.flatMap_cons, ih, List.flatMap_cons, List.flatMap_append]
    congr 1
    unfold recordLines line
    rw [List.flatMap_cons, List.flatMap_map]

theorem fields_row {n : Nat} {fs : List Str} (h : Row (n + 1) fs) : fields (join [','] fs) = fs.map clean := by
  unfold fields
  rw [splitOn_join ',' fs (by rintro rfl; exact absurd h.1 (by simp)) (fun f hf => (h.2 f hf).1)]

theorem no_break {n : Nat} {fs : List Str} (h : Row n fs) : '\n' ∉ join [','] fs := by
  intro hm
  rcases Literal.join_mem hm with hc | ⟨p, hp, hc⟩
  · revert hc; decide
  · exact (h.2 p hp).2 hc

/-! ### records -/

theorem fields_length {n : Nat} {fs : List Str} (h : Row (n + 1) fs) : (fields (join [','] fs)).length = n + 1 := by
  rw [fields_row h, List.length_map, h.1]

theorem bad_append (a b : List Str) : bad (a ++ b) = bad a + bad b := by
  unfold bad
  rw [List.filter_append, List.length_append]

theorem combine_append (m : List Str) (a b : List Str) : combine m (a ++ b) = combine m a ++ combine m b := by
  unfold combine
  rw [List.map_append, List.filter_append, List.map_append]

theorem bad_le (a : List Str) : bad a ≤ a.length := List.length_filter_le _ _

theorem bad_one {l : Str} (h : (fields l).length ≠ 15) : bad [l] = 1 := by
  unfold bad
  rw [List.filter_cons_of_pos (by simpa using h)]
  rfl

theorem combine_one (m : List Str) {l : Str} (h : (fields l).length ≠ 15) : combine m [l] = [] := by
  unfold combine
  rw [List.map_cons, List.map_nil, List.filter_cons_of_neg (by simpa using h)]
  rfl

theorem bad_rows {rows : List (List Str)} (h : ∀ d ∈ rows, Row 15 d) : bad (rows.map (join [','])) = 0 := by
  unfold bad
  rw [List.length_eq_zero_iff, List.filter_eq_nil_iff]
  intro l hl
  obtain ⟨d, hd, rfl⟩ := List.mem_map.mp hl
  have := fields_length (n := 14) (h d hd)
  simpa using this

theorem combine_rows (m : List Str) {rows : List (List Str)} (h : ∀ d ∈ rows, Row 15 d) :
    combine m (rows.map (join [','])) = rows.map (fun d => m ++ d.map clean) := by
  induction rows with
  | nil => rfl
  | cons d rows ih =>
    have h1 := h d List.mem_cons_self
    have h2 : combine m [join [','] d] = [m ++ d.map clean] := by
      unfold combine
      rw [List.map_cons, List.map_nil, List.filter_cons_of_pos (by simpa using fields_length (n := 14) h1), fields_row (n := 14) h1]
      rfl
    rw [List.map_cons, ← List.singleton_append, combine_append, h2, ih (fun x hx => h x (List.mem_cons_of_mem _ hx))]
    rfl

theorem walk_step (size : Nat) {m : Str} {rest : List Str} (hm : (fields m).length = 77) (hr : rest ≠ []) :
    walk size (m :: rest) = match walk size (rest.drop (size - bad (rest.take size))) with
      | .error e => .error e
      | .ok rows => .ok (combine (fields m) (rest.take size) ++ rows) := by
  cases rest with
  | nil => exact absurd rfl hr
  | cons r rs =>
    rw [walk, if_neg (by simpa using hm)]
    cases walk size ((r :: rs).drop (size - bad ((r :: rs).take size))) <;> rfl

/-- what becomes of a record -/
def cleaned (r : Record) : List (List Str) := r.rows.map (fun d => r.head.map clean ++ d.map clean)

/-- a record that is not the last -/
theorem walk_record {n : Nat} {r : Record} (hp : Proper r) (h1 : r.rows.length ≤ n) (h2 : n ≤ r.rows.length + 1) {l : Str} {tail : List Str}
    (hl : (fields l).length = 77) :
    walk n (recordLines r ++ l :: tail) = match walk n (l :: tail) with
      | .error e => .error e
      | .ok rows => .ok (cleaned r ++ rows) := by
  unfold recordLines
  rw [List.cons_append, walk_step n (fields_length (n := 76) hp.1) (by simp)]
  have h15 : (fields l).length ≠ 15 := by rw [hl]; decide
  have hlen : (r.rows.map (join [','])).length = r.rows.length := List.length_map _
  have hc : combine (fields (join [','] r.head)) (r.rows.map (join [','])) = cleaned r := by
    rw [combine_rows _ hp.2, fields_row (n := 76) hp.1]
    rfl
  rcases Nat.lt_or_ge r.rows.length n with hlt | hge
  · have hn : n = r.rows.length + 1 := by omega
    have ht : (r.rows.map (join [',']) ++ l :: tail).take n = r.rows.map (join [',']) ++ [l] := by
      rw [hn, List.take_append, hlen, List.take_of_length_le (by omega), show r.rows.length + 1 - r.rows.length = 1 by omega]
      rfl
    rw [ht, bad_append, bad_rows hp.2, bad_one h15, combine_append, combine_one _ h15, hc, List.append_nil,
      show n - (0 + 1) = (r.rows.map (join [','])).length by omega, List.drop_left]
  · have hn : n = (r.rows.map (join [','])).length := by omega
    rw [hn, List.take_left, bad_rows hp.2, Nat.sub_zero, List.drop_left, hc]

/-- the last record -/
theorem walk_last {n : Nat} {r : Record} (hp : Proper r) (h1 : r.rows.length ≤ n) {tail : List Str} (ht : tail = [] ∨ tail = [[]]) :
    walk n (recordLines r ++ tail) = .ok (cleaned r) := by
  unfold recordLines
  have hlen : (r.rows.map (join [','])).length = r.rows.length := List.length_map _
  have hc : combine (fields (join [','] r.head)) (r.rows.map (join [','])) = cleaned r := by
    rw [combine_rows _ hp.2, fields_row (n := 76) hp.1]
    rfl
  have h15 : (fields []).length ≠ 15 := by decide
  have hw : ∀ k, walk n (([] : List Str).drop k) = .ok [] := by
    intro k
    rw [List.drop_nil, walk]
  have hw1 : ∀ k, walk n (([[]] : List Str).drop k) = .ok [] := by
    intro k
    cases k with
    | zero => rw [List.drop_zero, walk]
    | succ k => exact hw k
  by_cases he : r.rows.map (join [',']) ++ tail = []
  · rw [List.cons_append, he, walk]
    have : r.rows = [] := by simpa using (List.append_eq_nil_iff.mp he).1
    rw [cleaned, this]
    rfl
  · rw [List.cons_append, walk_step n (fields_length (n := 76) hp.1) he]
    rcases ht with rfl | rfl
    · rw [List.append_nil, List.take_of_length_le (by omega), bad_rows hp.2, List.drop_eq_nil_of_le (by omega), hc, walk]
      simp
    · rcases Nat.lt_or_ge r.rows.length n with hlt | hge
      · rw [List.take_of_length_le (by rw [List.length_append, hlen, List.length_singleton]; omega), bad_append, bad_rows hp.2, bad_one h15, combine_append,
          combine_one _ h15, hc, List.append_nil, List.drop_append, List.drop_eq_nil_of_le (by omega), List.nil_append, hw1]
        simp
      · have hn : n = (r.rows.map (join [','])).length := by omega
        rw [hn, List.take_left, bad_rows hp.2, Nat.sub_zero, List.drop_left, hc, walk]
        simp

/-- all records have all rows or lack one; the last may have less -/
def Sized (n : Nat) (rs : List Record) : Prop :=
  ∀ i r, rs[i]? = some r → r.rows.length ≤ n ∧ (i + 1 < rs.length → n ≤ r.rows.length + 1)

theorem walk_records {n : Nat} {tail : List Str} (ht : tail = [] ∨ tail = [[]]) : ∀ rs : List Record, (∀ r ∈ rs, Proper r) → Sized n rs →
    walk n (rs.flatMap recordLines ++ tail) = .ok (rs.flatMap cleaned)
  | [], _, _ => by
    rcases ht with rfl | rfl <;> rw [List.flatMap_nil, List.nil_append, walk] <;> rfl
  | [r], hp, hs => by
    have := hs 0 r rfl
    rw [List.flatMap_cons, List.flatMap_nil, List.append_nil, walk_last (hp r List.mem_cons_self) this.1 ht]
    simp
  | r :: r2 :: rs, hp, hs => by
    have h0 := hs 0 r rfl
    have ih := walk_records ht (r2 :: rs) (fun x hx => hp x (List.mem_cons_of_mem _ hx)) (by
      intro i x hx
      have := hs (i + 1) x hx
      simp only [List.length_cons] at this ⊢
      exact ⟨this.1, fun hlt => this.2 (by omega)⟩)
    have h2 := hp r2 (by simp)
    rw [List.flatMap_cons, List.append_assoc]
    have hl : ∀ rest, (r2 :: rs).flatMap recordLines ++ rest = join [','] r2.head :: (r2.rows.map (join [',']) ++ (rs.flatMap recordLines ++ rest)) := by
      intro rest
      rw [List.flatMap_cons, recordLines, List.append_assoc, List.cons_append]
    rw [hl, walk_record (hp r List.mem_cons_self) h0.1 (h0.2 (by simp)) (fields_length (n := 76) h2.1), ← hl, ih]
    rfl

theorem cleaned_rows (rs : List Record) : rs.flatMap cleaned = (tableRows rs).map (List.map clean) := by
  induction rs with
  | nil => rfl
  | cons r rs ih =>
    unfold tableRows at ih ⊢
    rw [List.flatMap_cons, List.flatMap_cons, List.map_append, ih]
    congr 1
    unfold cleaned
    rw [List.map_map]
    refine List.map_congr_left (fun d _ => ?_)
    simp

theorem record_breaks {rs : List Record} (hp : ∀ r ∈ rs, Proper r) : ∀ l ∈ rs.flatMap recordLines, '\n' ∉ l := by
  intro l hl
  obtain ⟨r, hr, hl⟩ := List.mem_flatMap.mp hl
  rcases List.mem_cons.mp hl with rfl | hl
  · exact no_break (hp r hr).1
  · obtain ⟨d, hd, rfl⟩ := List.mem_map.mp hl
    exact no_break ((hp r hr).2 d hd)

/-- with a line feed at the end of the file or without -/
theorem file_lines {rs : List Record} (hp : ∀ r ∈ rs, Proper r) {b : List UInt8} (h : Ascii (text rs) b ∨ Ascii (text rs) (b ++ [10])) :
    ∃ tail, (tail = [] ∨ tail = [[]]) ∧ lines b = rs.flatMap recordLines ++ tail := by
  have hs : ∀ t, splitOn '\n' (text rs ++ t) = rs.flatMap recordLines ++ splitOn '\n' t := by
    intro t
    rw [text_lines, splitOn_lines _ (record_breaks hp)]
  rcases h with h | h
  · refine ⟨[[]], .inr rfl, ?_⟩
    rw [lines_eq, ascii_decode h]
    have := hs []
    rw [List.append_nil] at this
    exact this
  · refine ⟨[], .inl rfl, ?_⟩
    have h1 := ascii_decode h
    rw [show decodeAscii (b ++ [10]) = decodeAscii b ++ ['\n'] by unfold decodeAscii; rw [List.map_append]; rfl] at h1
    have h2 := hs []
    rw [List.append_nil, ← h1, Files.splitOn_append_gen] at h2
    rw [lines_eq, List.append_nil]
    exact List.append_cancel_right h2

/-! ### columns -/

theorem castAll_ok {V : Type} (cast : Str → Option V) (vals : Nat → V) : ∀ cells : List Str,
    (∀ i c, cells[i]? = some c → cast c = some (vals i)) → castAll cast cells = some ((List.range cells.length).map vals) := by
  intro cells
  induction cells generalizing vals with
  | nil => intro _; rfl
  | cons c cs ih =>
    intro h
    rw [castAll, h 0 c rfl, ih (fun i => vals (i + 1)) (fun i x hx => h (i + 1) x hx)]
    simp only
    rw [List.length_cons, List.range_succ_eq_map, List.map_cons, List.map_map]
    rfl

theorem table_ok {V : Type} (cast : Str → Str → Option V) (rows : List (List Str)) (vals : Nat → Nat → V) : ∀ (cols : List (Str × Str)) (j : Nat),
    (∀ i row, rows[i]? = some row → ∀ k name dtype, cols[k]? = some (name, dtype) → cast dtype (row.getD (j + k) []) = some (vals i (j + k))) →
    table cast rows j cols = .ok (cols.zipIdx.map (fun e => (e.1.1, (List.range rows.length).map (fun i => vals i (j + e.2))))) := by
  intro cols
  induction cols with
  | nil => intro j _; rfl
  | cons e cols ih =>
    obtain ⟨name, dtype⟩ := e
    intro j h
    have h1 := castAll_ok (cast dtype) (fun i => vals i j) (rows.map (fun r => r.getD j [])) (by
      intro i c hc
      rw [List.getElem?_map] at hc
      cases hr : rows[i]? with
      | none => rw [hr] at hc; cases hc
      | some row =>
        rw [hr] at hc
        cases hc
        exact h i row hr 0 name dtype rfl)
    have h2 := ih (j + 1) (by
      intro i row hr k name' dtype' hk
      have := h i row hr (k + 1) name' dtype' hk
      rwa [show j + 1 + k = j + (k + 1) by omega])
    rw [table, h1]
    simp only
    rw [h2]
    simp only
    rw [List.length_map, List.zipIdx_cons, List.map_cons, List.zipIdx_succ, List.map_map]
    congr 2
    refine List.map_congr_left (fun e _ => ?_)
    simp only [Function.comp_apply]
    congr 2
    funext i
    rw [show j + 1 + e.2 = j + (e.2 + 1) by omega]

theorem columns_eq : columns.zip dtypes = metaColumns ++ dataColumns := by
  rfl

theorem columns_count : (metaColumns ++ dataColumns).length = 92 := by
  rfl

theorem tableRows_length {rs : List Record} (hp : ∀ r ∈ rs, Proper r) {row : List Str} (h : row ∈ tableRows rs) : row.length = 92 := by
  obtain ⟨r, hr, h⟩ := List.mem_flatMap.mp h
  obtain ⟨d, hd, rfl⟩ := List.mem_map.mp h
  rw [List.length_append, (hp r hr).1.1, ((hp r hr).2 d hd).1]

/-! ### C134 -/

/-- **C134.** A file of records that have all `REPETITIONS` rows, or all but one, and a last record of any number of rows: the table has the
92 columns, and one row for every data row, in the order of the file, with the values of the metadata of its record and its own. The
last line may be without line feed; before the table there may be anything. -/
theorem C134_rows {V : Type} (cast : Str → Str → Option V) (n : Nat) (rs : List Record) (hp : ∀ r ∈ rs, Proper r)
    (hn : ∀ i r, rs[i]? = some r → r.rows.length ≤ n ∧ (i + 1 < rs.length → n ≤ r.rows.length + 1))
    (before b : List UInt8) (hb : Ascii (text rs) b ∨ Ascii (text rs) (b ++ [10])) (values : Nat → Nat → V)
    (hv : ∀ i j row field name dtype, (tableRows rs)[i]? = some row → row[j]? = some field →
      (metaColumns ++ dataColumns)[j]? = some (name, dtype) → Value cast field dtype (values i j)) :
    ∃ t, loader cast n (before ++ b) before.length = .ok t ∧ t.map Prod.fst = (metaColumns ++ dataColumns).map Prod.fst ∧
      ∀ j name column, t[j]? = some (name, column) → column.length = (tableRows rs).length ∧
        ∀ i < column.length, column[i]? = some (values i j) := by
  obtain ⟨tail, ht, hl⟩ := file_lines hp hb
  have hw := walk_records ht rs hp hn
  have htab := table_ok cast ((tableRows rs).map (List.map clean)) values (metaColumns ++ dataColumns) 0 (by
    intro i row hr k name dtype hk
    rw [List.getElem?_map] at hr
    cases hraw : (tableRows rs)[i]? with
    | none => rw [hraw] at hr; cases hr
    | some raw =>
      rw [hraw] at hr
      cases hr
      have hlen := tableRows_length hp (List.mem_of_getElem? hraw)
      have hk92 : k < raw.length := by
        rw [hlen, ← columns_count]
        exact (List.getElem?_eq_some_iff.mp hk).1
      obtain ⟨core, hc, hcast⟩ := hv i k raw raw[k] name dtype hraw (List.getElem?_eq_getElem hk92) hk
      rw [Nat.zero_add, List.getD_eq_getElem?_getD, List.getElem?_map, List.getElem?_eq_getElem hk92, Option.map_some, Option.getD_some,
        clean_content hc]
      exact hcast)
  refine ⟨(metaColumns ++ dataColumns).zipIdx.map (fun e => (e.1.1, (List.range (tableRows rs).length).map (fun i => values i e.2))), ?_, ?_, ?_⟩
  · unfold loader
    rw [List.drop_left, hl, hw, cleaned_rows, columns_eq]
    simp only
    rw [htab]
    simp only [List.length_map, Nat.zero_add]
  · rw [List.map_map]
    have : ∀ (l : List (Str × Str)) (k : Nat), (l.zipIdx k).map (fun e => e.1.1) = l.map Prod.fst := by
      intro l
      induction l with
      | nil => intro k; rfl
      | cons e l ih => intro k; rw [List.zipIdx_cons, List.map_cons, ih, List.map_cons]
    exact this _ 0
  · intro j name column hj
    rw [List.getElem?_map] at hj
    cases hz : (metaColumns ++ dataColumns).zipIdx[j]? with
    | none => rw [hz] at hj; cases hj
    | some e =>
      rw [hz] at hj
      rw [List.getElem?_zipIdx] at hz
      cases hm : (metaColumns ++ dataColumns)[j]? with
      | none => rw [hm] at hz; cases hz
      | some c =>
        rw [hm] at hz
        cases hz
        cases hj
        simp only [List.length_map, List.length_range]
        refine ⟨trivial, fun i hi => ?_⟩
        rw [List.getElem?_map, List.getElem?_range hi]
        simp

/-! ### C135 -/

theorem walk_before {n : Nat} {l : Str} {tail : List Str} (hl : (fields l).length = 77) (he : walk n (l :: tail) = .error .typeError) :
    ∀ rs : List Record, (∀ r ∈ rs, Proper r ∧ r.rows.length ≤ n ∧ n ≤ r.rows.length + 1) →
      walk n (rs.flatMap recordLines ++ l :: tail) = .error .typeError
  | [], _ => by rw [List.flatMap_nil, List.nil_append, he]
  | [r], h => by
    have := h r List.mem_cons_self
    rw [List.flatMap_cons, List.flatMap_nil, List.append_nil, walk_record this.1 this.2.1 this.2.2 hl, he]
  | r :: r2 :: rs, h => by
    have h0 := h r List.mem_cons_self
    have h2 := (h r2 (by simp)).1
    have ih := walk_before hl he (r2 :: rs) (fun x hx => h x (List.mem_cons_of_mem _ hx))
    rw [List.flatMap_cons, List.append_assoc]
    have hc : ∀ rest, (r2 :: rs).flatMap recordLines ++ rest = join [','] r2.head :: (r2.rows.map (join [',']) ++ (rs.flatMap recordLines ++ rest)) := by
      intro rest
      rw [List.flatMap_cons, recordLines, List.append_assoc, List.cons_append]
    rw [hc, walk_record h0.1 h0.2.1 h0.2.2 (fields_length (n := 76) h2.1), ← hc, ih]

theorem splitOn_some (sep : Char) (s : Str) : splitOn sep s ≠ [] := splitOn_ne_nil sep s

theorem loader_error {V : Type} (cast : Str → Str → Option V) (n : Nat) (before b : List UInt8) (h : walk n (lines b) = .error .typeError) :
    loader cast n (before ++ b) before.length = .error .typeError := by
  unfold loader
  rw [List.drop_left, h]

/-- **C135 (a wrong row).** After complete records there is one with all its rows, of which at least one has not 15 fields (and none 77, as
metadata have): nothing of the table can be read, whatever follows. -/
theorem C135_wrong {V : Type} (cast : Str → Str → Option V) (n : Nat) (rs : List Record)
    (hp : ∀ r ∈ rs, Proper r ∧ r.rows.length ≤ n ∧ n ≤ r.rows.length + 1) (r : Record) (hh : Row 77 r.head) (hn : r.rows.length = n)
    (hr : ∀ d ∈ r.rows, d ≠ [] ∧ d.length ≠ 77 ∧ ∀ f ∈ d, Field f) (hbad : ∃ d ∈ r.rows, d.length ≠ 15)
    (rest : Str) (before b : List UInt8) (hb : Ascii (text rs ++ text [r] ++ rest) b) :
    loader cast n (before ++ b) before.length = .error .typeError := by
  apply loader_error
  have hrow : ∀ d ∈ r.rows, '\n' ∉ join [','] d ∧ (fields (join [','] d)).length = d.length := by
    intro d hd
    obtain ⟨h1, h2, h3⟩ := hr d hd
    cases d with
    | nil => exact absurd rfl h1
    | cons f d => exact ⟨no_break (n := d.length + 1) ⟨rfl, h3⟩, fields_length (n := d.length) ⟨rfl, h3⟩⟩
  have hbr : ∀ l ∈ rs.flatMap recordLines ++ recordLines r, '\n' ∉ l := by
    intro l hl
    rcases List.mem_append.mp hl with hl | hl
    · exact record_breaks (fun x hx => (hp x hx).1) l hl
    · rcases List.mem_cons.mp hl with rfl | hl
      · exact no_break hh
      · obtain ⟨d, hd, rfl⟩ := List.mem_map.mp hl
        exact (hrow d hd).1
  have hl : lines b = rs.flatMap recordLines ++ (recordLines r ++ splitOn '\n' rest) := by
    rw [lines_eq, ascii_decode hb, text_lines, text_lines, List.flatMap_cons, List.flatMap_nil, List.append_nil, ← List.flatMap_append,
      splitOn_lines _ hbr, List.append_assoc]
  rw [hl, recordLines, List.cons_append]
  have hhead := fields_length (n := 76) hh
  refine walk_before hhead ?_ rs hp
  have hlen : (r.rows.map (join [','])).length = n := by rw [List.length_map, hn]
  have hb1 : 1 ≤ bad (r.rows.map (join [','])) := by
    obtain ⟨d, hd, h15⟩ := hbad
    have : join [','] d ∈ (r.rows.map (join [','])).filter (fun x => (fields x).length ≠ 15) := by
      rw [List.mem_filter]
      refine ⟨List.mem_map.mpr ⟨d, hd, rfl⟩, ?_⟩
      rw [decide_eq_true_eq, (hrow d hd).2]
      exact h15
    unfold bad
    exact List.length_pos_of_mem this
  have hb2 := bad_le (r.rows.map (join [',']))
  have hne : r.rows.map (join [',']) ++ splitOn '\n' rest ≠ [] := fun h => splitOn_some _ _ (List.append_eq_nil_iff.mp h).2
  have htake : (r.rows.map (join [',']) ++ splitOn '\n' rest).take n = r.rows.map (join [',']) := by
    rw [← hlen, List.take_left]
  rw [walk_step n hhead hne, htake]
  generalize hk : n - bad (r.rows.map (join [','])) = k
  have hkl : k < (r.rows.map (join [','])).length := by omega
  rw [List.drop_append_of_le_length (by omega), List.drop_eq_getElem_cons hkl, List.cons_append]
  obtain ⟨d, hd, he⟩ := List.mem_map.mp (List.getElem_mem hkl)
  rw [← he]
  have h77 : (fields (join [','] d)).length ≠ 77 := by rw [(hrow d hd).2]; exact (hr d hd).2.1
  cases hrest : (r.rows.map (join [','])).drop (k + 1) ++ splitOn '\n' rest with
  | nil => exact absurd (List.append_eq_nil_iff.mp hrest).2 (splitOn_some _ _)
  | cons x xs => rw [walk, if_pos h77]

/-- **C135 (missing rows).** After complete records one lacks two rows or more, and another record follows that has at least one row less
than are missing: nothing of the table can be read, whatever follows. -/
theorem C135_missing {V : Type} (cast : Str → Str → Option V) (n : Nat) (rs : List Record)
    (hp : ∀ r ∈ rs, Proper r ∧ r.rows.length ≤ n ∧ n ≤ r.rows.length + 1) (r r2 : Record) (hr : Proper r) (hr2 : Proper r2)
    (missing : Nat) (hm : 2 ≤ missing) (hn : r.rows.length + missing = n) (h2 : missing ≤ r2.rows.length + 1)
    (rest : Str) (before b : List UInt8) (hb : Ascii (text rs ++ text [r, r2] ++ rest) b) :
    loader cast n (before ++ b) before.length = .error .typeError := by
  apply loader_error
  have hbr : ∀ l ∈ rs.flatMap recordLines ++ [r, r2].flatMap recordLines, '\n' ∉ l := by
    intro l hl
    rcases List.mem_append.mp hl with hl | hl
    · exact record_breaks (fun x hx => (hp x hx).1) l hl
    · exact record_breaks (by
        intro x hx
        simp only [List.mem_cons, List.not_mem_nil, or_false] at hx
        rcases hx with rfl | rfl
        · exact hr
        · exact hr2) l hl
  have hl : lines b = rs.flatMap recordLines ++ (recordLines r ++ (recordLines r2 ++ splitOn '\n' rest)) := by
    rw [lines_eq, ascii_decode hb, text_lines, text_lines, ← List.flatMap_append, splitOn_lines _ hbr, List.append_assoc,
      List.flatMap_cons, List.flatMap_cons, List.flatMap_nil, List.append_nil, List.append_assoc]
  rw [hl, recordLines, List.cons_append]
  have hhead := fields_length (n := 76) hr.1
  refine walk_before hhead ?_ rs hp
  have hlen : (r.rows.map (join [','])).length = r.rows.length := List.length_map _
  have hlen2 : (r2.rows.map (join [','])).length = r2.rows.length := List.length_map _
  have h15 : (fields (join [','] r2.head)).length ≠ 15 := by rw [fields_length (n := 76) hr2.1]; decide
  obtain ⟨k, rfl⟩ : ∃ k, missing = k + 2 := ⟨missing - 2, by omega⟩
  rw [walk_step n hhead (by simp [recordLines])]
  have htake : (r.rows.map (join [',']) ++ (recordLines r2 ++ splitOn '\n' rest)).take n =
      r.rows.map (join [',']) ++ ([join [','] r2.head] ++ (r2.rows.take (k + 1)).map (join [','])) := by
    rw [List.take_append, hlen, List.take_of_length_le (by omega), show n - r.rows.length = (k + 1) + 1 by omega, recordLines, List.cons_append,
      List.take_succ_cons, List.take_append_of_le_length (by omega), List.map_take]
    rfl
  have hbd : bad (r.rows.map (join [',']) ++ ([join [','] r2.head] ++ (r2.rows.take (k + 1)).map (join [',']))) = 1 := by
    rw [bad_append, bad_append, bad_rows hr.2, bad_one h15, bad_rows (fun d hd => hr2.2 d (List.mem_of_mem_take hd))]
  rw [htake, hbd]
  have hkl : k < (r2.rows.map (join [','])).length := by omega
  have hdrop : (r.rows.map (join [',']) ++ (recordLines r2 ++ splitOn '\n' rest)).drop (n - 1) =
      (r2.rows.map (join [',']))[k] :: ((r2.rows.map (join [','])).drop (k + 1) ++ splitOn '\n' rest) := by
    rw [List.drop_append, hlen, List.drop_eq_nil_of_le (by omega), List.nil_append, show n - 1 - r.rows.length = k + 1 by omega, recordLines,
      List.cons_append, List.drop_succ_cons, List.drop_append_of_le_length (by omega), List.drop_eq_getElem_cons hkl, List.cons_append]
  rw [hdrop]
  obtain ⟨d, hd, he⟩ := List.mem_map.mp (List.getElem_mem hkl)
  rw [← he]
  have h77 : (fields (join [','] d)).length ≠ 77 := by rw [fields_length (n := 14) (hr2.2 d hd)]; decide
  cases hrest : (r2.rows.map (join [','])).drop (k + 1) ++ splitOn '\n' rest with
  | nil => exact absurd (List.append_eq_nil_iff.mp hrest).2 (splitOn_some _ _)
  | cons x xs => rw [walk, if_pos h77]

/-! ### examples -/

/-- the text in ASCII -/
def toAscii (s : Str) : List UInt8 := s.map (fun c => UInt8.ofNat c.toNat)

theorem ascii_of (s : Str) (h : s.all (fun c => c.toNat < 128) = true) : Ascii s (toAscii s) := by
  unfold toAscii Ascii
  rw [List.forall₂_map_right_iff]
  refine List.forall₂_same.mpr (fun c hc => ?_)
  have h1 : c.toNat < 128 := by simpa using List.all_eq_true.mp h c hc
  have h2 : (UInt8.ofNat c.toNat).toNat = c.toNat := by
    rw [UInt8.toNat_ofNat']
    exact Nat.mod_eq_of_lt (by omega)
  exact ⟨h2, by rw [h2]; exact h1⟩

/-- a record with these rows: the metadata are 77 times 1 -/
def demoRecord (rows : List (List Str)) : Record := ⟨List.replicate 77 c!"1", rows⟩

/-- a data row, in quotation marks and with blanks -/
def demoRow : List Str := List.replicate 15 c!" \"2 \""

theorem demoRow_row : Row 15 demoRow := ⟨rfl, by
  intro f hf
  rw [List.eq_of_mem_replicate hf]
  exact ⟨by decide, by decide⟩⟩

theorem demoHead_row : Row 77 (List.replicate 77 c!"1") := ⟨rfl, by
  intro f hf
  rw [List.eq_of_mem_replicate hf]
  exact ⟨by decide, by decide⟩⟩

theorem demo_proper {rows : List (List Str)} (h : ∀ d ∈ rows, d = demoRow) : Proper (demoRecord rows) :=
  ⟨demoHead_row, fun d hd => by rw [h d hd]; exact demoRow_row⟩

set_option maxRecDepth 20000 in
/-- the hypotheses of `C134_rows` are met: two records for two rows each, of which the first lacks one -/
example : ∃ t, loader (fun dtype text => some (dtype, text)) 2
      ([9, 9] ++ toAscii (text [demoRecord [demoRow], demoRecord [demoRow, demoRow]])) 2 = .ok t ∧
    t.map Prod.fst = (metaColumns ++ dataColumns).map Prod.fst ∧
    ∀ name column, t[91]? = some (name, column) → column.length = 3 ∧ column[2]? = some (c!"float64", c!"2") := by
  obtain ⟨t, h1, h2, h3⟩ := C134_rows (fun dtype text => some (dtype, text)) 2 [demoRecord [demoRow], demoRecord [demoRow, demoRow]]
    (by
      intro r hr
      simp only [List.mem_cons, List.not_mem_nil, or_false] at hr
      rcases hr with rfl | rfl <;> exact demo_proper (by simp))
    (by
      intro i r hr
      rcases i with _ | _ | i
      · cases hr; exact ⟨by decide, fun _ => by decide⟩
      · cases hr; exact ⟨by decide, fun h => absurd h (by decide)⟩
      · cases hr)
    [9, 9] _ (.inl (ascii_of _ (by decide))) (fun _ j => (((metaColumns ++ dataColumns).getD j ([], [])).2, if j < 77 then c!"1" else c!"2"))
    (by
      intro i j row field name dtype hr hf hk
      have hrow : row = List.replicate 77 c!"1" ++ demoRow := by
        have := List.mem_of_getElem? hr
        simpa [tableRows, demoRecord] using this
      subst hrow
      rw [List.getD_eq_getElem?_getD, hk]
      by_cases hj : j < 77
      · rw [List.getElem?_append_left (by simpa using hj), List.getElem?_replicate, if_pos hj] at hf
        cases hf
        rw [if_pos hj]
        refine ⟨c!"1", ?_, rfl⟩
        have := Content.plain [] c!"1" [] (by simp) (by simp) (by
          intro c hc
          rcases hc with hc | hc <;> cases hc <;> decide)
        simpa using this
      · rw [List.getElem?_append_right (by simpa using Nat.le_of_not_lt hj)] at hf
        have hf' : field = c!" \"2 \"" := List.eq_of_mem_replicate (List.mem_of_getElem? hf)
        subst hf'
        rw [if_neg hj]
        refine ⟨c!"2", ?_, rfl⟩
        exact Content.quoted c!" " [] c!"2" c!" " [] (by decide) (by simp) (by simp) (by decide) (by
          intro c hc
          rcases hc with hc | hc <;> cases hc <;> decide))
  refine ⟨t, h1, h2, fun name column hj => ?_⟩
  obtain ⟨h4, h5⟩ := h3 91 name column hj
  have h6 : column.length = 3 := h4.trans rfl
  exact ⟨h6, (h5 2 (by omega)).trans rfl⟩

set_option maxRecDepth 20000 in
/-- the hypotheses of `C135_wrong` are met: one of two rows has a comma too many -/
example : loader (fun dtype text => some (dtype, text)) 2
      ([] ++ toAscii (text [] ++ text [demoRecord [demoRow, [] :: demoRow]] ++ text [demoRecord [demoRow, demoRow]])) 0 = .error .typeError :=
  C135_wrong _ 2 [] (by simp) (demoRecord [demoRow, [] :: demoRow]) demoHead_row rfl
    (by
      intro d hd
      simp only [demoRecord, List.mem_cons, List.not_mem_nil, or_false] at hd
      rcases hd with rfl | rfl
      · exact ⟨by decide, by decide, demoRow_row.2⟩
      · refine ⟨by decide, by decide, ?_⟩
        intro f hf
        rcases List.mem_cons.mp hf with rfl | hf
        · exact ⟨by simp, by simp⟩
        · exact demoRow_row.2 f hf)
    ⟨[] :: demoRow, by simp [demoRecord], by decide⟩ _ [] _ (ascii_of _ (by decide))

set_option maxRecDepth 20000 in
/-- the hypotheses of `C135_missing` are met: the first record lacks both rows -/
example : loader (fun dtype text => some (dtype, text)) 2
      ([] ++ toAscii (text [] ++ text [demoRecord [], demoRecord [demoRow, demoRow]] ++ [])) 0 = .error .typeError :=
  C135_missing _ 2 [] (by simp) (demoRecord []) (demoRecord [demoRow, demoRow]) (demo_proper (by simp)) (demo_proper (by simp)) 2 (by decide)
    rfl (by decide) _ [] _ (ascii_of _ (by decide))

end Verif.McsTable
