/-
C12: where data starts. C41: limits of locating. C42: text headers. C43: FITS offsets.
-/
import Verif.Model.Locate
import Verif.Props.LineEnd
import Verif.Lemmas.Str

namespace Verif.Locate
open Verif.Py Verif.LineEnd

/-! ### C12 -/

/-- **C12.** Whatever the pointer, label and file: the offset, if there is one, is not negative. -/
theorem C12_never_negative (rb : Val) (b : Option Blk) (t : Target) (size : Nat) (n : Int)
    (h : dataStartByte rb b t size = .ok n) : 0 ≤ n := by
  unfold dataStartByte at h
  simp only at h
  split at h
  · cases h
  · split at h
    · cases h
    · cases h
    · cases h
    · split at h
      · cases h
      · cases h; omega

/-- **C12 (record pointers).** Place `n` (1-based, with records of `r ≥ 0` bytes) is byte `(n-1)*r`. -/
theorem C12_record_pointer (rb : Val) (b : Option Blk) (size : Nat) (n r : Int)
    (hr : recordSize rb b = .int r) (hr0 : 0 ≤ r) (hn : 1 ≤ n) :
    dataStartByte rb b (.item (.val (.int n))) size = .ok ((n - 1) * r) := by
  unfold dataStartByte
  simp only [hr, itemStart]
  by_cases h1 : n = 1
  · subst h1; simp
  · rw [if_neg h1, if_pos (by simp)]
    simp only [mulV]
    have h2 : max (n - 1) 0 = n - 1 := by omega
    rw [h2, if_neg, Int.mul_comm]
    exact Int.not_lt.2 (Int.mul_nonneg hr0 (by omega))

/-- **C12 (record quantities).** A quantity in records or other non-byte units counts records. -/
theorem C12_record_quantity (rb : Val) (b : Option Blk) (size : Nat) (v r : Int) (u : Str)
    (hr : recordSize rb b = .int r) (hr0 : 0 ≤ r) (hv : 1 ≤ v) (hu : u ≠ c!"BYTES") :
    dataStartByte rb b (.item (.quantity v u)) size = .ok ((v - 1) * r) := by
  unfold dataStartByte
  simp only [hr, itemStart, quantityStart]
  rw [if_neg hu, if_pos (by simp)]
  simp only [mulV]
  have h2 : max (v - 1) 0 = v - 1 := by omega
  rw [h2, if_neg, Int.mul_comm]
  exact Int.not_lt.2 (Int.mul_nonneg hr0 (by omega))

/-- **C12 (byte quantities).** `v <BYTES>` is byte `v - 1`, whatever the record size; a place before the
file is an error. -/
theorem C12_byte_quantity (rb : Val) (b : Option Blk) (size : Nat) (v : Int) :
    dataStartByte rb b (.item (.quantity v c!"BYTES")) size =
      if 1 ≤ v then .ok (v - 1) else .error .valueError := by
  unfold dataStartByte
  simp only [itemStart, quantityStart, if_true]
  by_cases hv : 1 ≤ v
  · rw [if_pos hv, if_neg (by omega)]
  · rw [if_neg hv, if_pos (by omega)]

/-- **C12 (bare file names).** A pointer that is only a file name starts at byte 0. -/
theorem C12_file_name (rb : Val) (b : Option Blk) (size : Nat) (s : Str) :
    dataStartByte rb b (.item (.val (.str s))) size = .ok 0 := rfl

/-- **C12 (file name and place).** In a list, only the last element counts. -/
theorem C12_last_of_list (rb : Val) (b : Option Blk) (size : Nat) (xs : List Item) (i : Item) :
    dataStartByte rb b (.seq (xs ++ [i])) size = dataStartByte rb b (.item i) size := by
  unfold dataStartByte
  simp

/-- **C12 (first place).** Place 1 is byte 0 even when no record size is known. -/
theorem C12_first_place (rb : Val) (b : Option Blk) (size : Nat) :
    dataStartByte rb b (.item (.val (.int 1))) size = .ok 0 := by
  simp [dataStartByte, itemStart]

/-- **C12 (places before the file).** A record pointer below 1 is taken for the start of the file. -/
theorem C12_nonpositive_place (rb : Val) (b : Option Blk) (size : Nat) (n r : Int)
    (hr : recordSize rb b = .int r) (hn : n ≤ 0) :
    dataStartByte rb b (.item (.val (.int n))) size = .ok 0 := by
  unfold dataStartByte
  simp only [hr, itemStart]
  rw [if_neg (by omega), if_pos (by simp)]
  have h2 : max (n - 1) 0 = 0 := by omega
  simp [mulV, h2]

/-- **C12 (unknown record size).** A table with `rows * rowBytes` bytes and no record size is taken from
the end of the file, or from its start if the file is too small. -/
theorem C12_from_bottom (rb : Val) (b : Blk) (size : Nat) (n rows rowBytes : Int)
    (hrb : recordSize rb (some b) = .none ∨ recordSize rb (some b) = .str []) (hn : n ≠ 1)
    (h1 : b.rows = some (.int rows)) (h2 : b.rowBytes = some (.int rowBytes)) :
    dataStartByte rb (some b) (.item (.val (.int n))) size = .ok (max 0 ((size : Int) - rows * rowBytes)) := by
  unfold dataStartByte
  simp only [itemStart]
  rw [if_neg hn, if_neg (by rcases hrb with h | h <;> simp [h])]
  simp only [h1, h2, bottomStart, mulV]
  rw [if_neg (by omega)]

/-- the record size is the object's own if it has one, else the label's -/
theorem C12_record_size (rb v : Val) (b : Blk) :
    (b.recordBytes = some v → recordSize rb (some b) = v) ∧
    (b.recordBytes = Option.none → recordSize rb (some b) = rb) ∧ recordSize rb Option.none = rb := by
  refine ⟨fun h => by simp [recordSize, h], fun h => by simp [recordSize, h], rfl⟩

example : dataStartByte (.int 100) (some {}) (.seq [.val (.str c!"A.IMG"), .val (.int 3)]) 0 = .ok 200 := rfl

/-- **C12 (tables).** A table not read by rows occupies the bytes from its start byte on; its length is
the BYTES given, or else its number of records (or rows) times the record length, which is RECORD_BYTES
of the table, or its ROW_BYTES plus ROW_SUFFIX_BYTES, or RECORD_BYTES of the label. -/
theorem C12_table_extent (rb : Val) (rt name : Str) (b : Blk) (t : Target) (start : Int) (p : TablePos)
    (h : tablePosition rb rt name (some b) t start = .ok p) (hr : p.asRows = false) :
    p.start = start ∧ 0 ≤ start ∧
    (∀ n, b.bytes = some n → p.length = n) ∧
    (∀ k r, b.bytes = Option.none → (b.records = some (.int k) ∨ b.records = Option.none ∧ b.rows = some (.int k)) →
      (b.recordBytes = some (.int r) ∨
       b.recordBytes = Option.none ∧ (∃ w s, b.rowBytes = some (.int w) ∧
          (b.rowSuffixBytes = some (.int s) ∨ b.rowSuffixBytes = Option.none ∧ s = 0) ∧ r = w + s) ∨
       b.recordBytes = Option.none ∧ b.rowBytes = Option.none ∧ rb = .int r) →
      p.length = .int (r * k)) ∧
    (b.bytes = Option.none → b.records = Option.none → b.rows = Option.none → p.length = .none) := by
  unfold tablePosition at h
  split at h
  · cases h
  · rename_i hneg
    split at h
    · cases h
    · rename_i asRows hds
      simp only at h
      split at h
      · cases h
      · rename_i s l hpl
        split at h
        · cases h
        · cases h
          simp only at hr
          subst hr
          simp only [Bool.false_eq_true, if_false] at hpl
          split at hpl
          · cases hpl
          · rename_i l' hl
            cases hpl
            refine ⟨rfl, by omega, ?_, ?_, ?_⟩
            · intro n hn
              simp only [tableLength, hn] at hl
              cases hl; rfl
            · intro k r hb hrec hlen
              have h1 : tableRecords (some b) = .int k := by
                rcases hrec with h | ⟨h, h'⟩
                · simp [tableRecords, h]
                · simp [tableRecords, h, h']
              have h2 : recordLength b rb = .ok (.int r) := by
                rcases hlen with h | ⟨h, w, s, h3, h4, h5⟩ | ⟨h, h', h3⟩
                · simp [recordLength, h]
                · rcases h4 with h4 | ⟨h4, h6⟩
                  · simp [recordLength, h, h3, h4, addV, h5]
                  · simp [recordLength, h, h3, h4, addV, h5, h6]
                · simp [recordLength, h, h', h3]
              simp only [tableLength, hb, h1, h2, mulV] at hl
              simp at hl
              exact hl.symm
            · intro hb h1 h2
              have : tableRecords (some b) = .none := by simp [tableRecords, h1, h2]
              simp [tableLength, hb, this] at hl
              exact hl.symm

example : ∃ p, tablePosition (.int 80) c!"FIXED_LENGTH" c!"TABLE"
    (some { rows := some (.int 3), rowBytes := some (.int 10), rowSuffixBytes := some (.int 2) })
    (.item (.val (.int 2))) 80 = .ok p ∧ p.asRows = false ∧ p.length = .int 36 := ⟨_, rfl, rfl, rfl⟩

/-- **C12 (tables by rows).** A stream of delimited records pointed to by file name and row number starts
at that row (1-based); by file name only, at the first row. -/
theorem C12_table_rows (rb : Val) (rt name : Str) (b : Blk) (t : Target) (start : Int) (p : TablePos)
    (h : tablePosition rb rt name (some b) t start = .ok p) (hr : p.asRows = true) :
    p.length = tableRecords (some b) ∧
    (∀ f n rest, t = .seq (f :: .val (.int n) :: rest) → p.start = n - 1) ∧
    (∀ f v u rest, t = .seq (f :: .quantity v u :: rest) → p.start = v - 1) ∧
    (∀ s, t = .item (.val (.str s)) → p.start = 0) := by
  unfold tablePosition at h
  split at h
  · cases h
  · split at h
    · cases h
    · rename_i asRows hds
      simp only at h
      split at h
      · cases h
      · rename_i s l hpl
        split at h
        · cases h
        · cases h
          simp only at hr
          subst hr
          simp only [if_true] at hpl
          split at hpl
          · cases hpl
          · rename_i s' hs
            cases hpl
            refine ⟨rfl, ?_, ?_, ?_⟩
            · intro f n rest ht
              subst ht; simp [rowStart] at hs; exact hs.symm
            · intro f n u rest ht
              subst ht; simp [rowStart] at hs; exact hs.symm
            · intro s ht
              subst ht
              simp only [rowStart] at hs
              split at hs
              · cases hs; rfl
              · cases hs

/-! ### C41: limits -/

/-- **C41 (limit).** An ASCII table, spreadsheet or header in a stream file that is pointed to by a row
number or quantity without a file name cannot be located at all, whatever the rest of the label. -/
theorem C41_stream_without_file_name (rt name : Str) (b : Blk) (n : Int) (start : Int)
    (hrt : rt = c!"STREAM") (hb : b.bytes = Option.none) (h0 : 0 ≤ start)
    (hname : contains name c!"ASCII" ∨ contains name c!"SPREADSHEET" ∨ contains name c!"HEADER") :
    tablePosition (.str []) rt name (some b) (.item (.val (.int n))) start = .error .typeError ∧
    ∀ u, u ≠ c!"BYTES" →
      tablePosition (.str []) rt name (some b) (.item (.quantity n u)) start = .error .keyError := by
  have hor : (contains name c!"ASCII" || contains name c!"SPREADSHEET" || contains name c!"HEADER") = true := by
    rcases hname with h | h | h <;> simp [h]
  constructor
  · unfold tablePosition
    rw [if_neg (by omega)]
    simp [delimiterStream, hb, hrt, hor, rowStart]
  · intro u hu
    unfold tablePosition
    rw [if_neg (by omega)]
    have hbeq : (u == c!"BYTES") = false := by simpa using hu
    simp only [delimiterStream, hbeq]
    simp [hb, hrt, hor, rowStart]

/-- **C41 (limit).** In a label without RECORD_BYTES, a table or header that gives a number of records but
neither BYTES nor ROW_BYTES gets the empty string as its length: a header of unknown length is then not
reported as such, and reading the text fails with a TypeError. -/
theorem C41_length_of_unknown_records (rt name : Str) (b : Blk) (t : Target) (start k : Int)
    (hb : b.bytes = Option.none) (hrb : b.recordBytes = Option.none) (hw : b.rowBytes = Option.none)
    (hk : tableRecords (some b) = .int k) (h0 : 0 ≤ start)
    (hd : delimiterStream (.str []) rt name t (some b) = .ok false) (content : Str) :
    ∃ p, tablePosition (.str []) rt name (some b) t start = .ok p ∧ p.length = .str [] ∧
      readHeader content p = .error .typeError ∧ asciiTextByBytes content p.start p.length = .error .typeError := by
  have hrep : repeatStr [] k = [] := by simp [repeatStr]
  have hl : tableLength (some b) (.str []) (.int k) = .ok (.str []) := by
    simp [tableLength, hb, recordLength, hrb, hw, mulV, hrep]
  refine ⟨⟨start, .str [], false⟩, ?_, rfl, ?_, ?_⟩
  · unfold tablePosition
    rw [if_neg (by omega), hd]
    simp [hk, hl]
  · simp [readHeader]
  · simp only [asciiTextByBytes]
    rw [if_neg (by omega)]

example : delimiterStream (.str []) c!"FIXED_LENGTH" c!"HEADER" (.item (.val (.int 1)))
    (some { records := some (.int 5) }) = .ok false := rfl

/-! ### C42: text -/

theorem cle_toCrlf (s : Str) (h : '\r' ∉ s) (rest : Str) : cle (toCrlf s ++ rest) = s ++ cle rest := by
  induction s with
  | nil => rfl
  | cons c cs ih =>
    have hc : c ≠ '\r' := fun e => h (by simp [e])
    have hcs : '\r' ∉ cs := fun e => h (by simp [e])
    by_cases hn : c = '\n'
    · subst hn
      have : toCrlf ('\n' :: cs) = '\r' :: '\n' :: toCrlf cs := by simp [toCrlf]
      rw [this]
      simp only [List.cons_append, cle]
      rw [ih hcs]
    · have : toCrlf (c :: cs) = c :: toCrlf cs := by simp [toCrlf, hn]
      rw [this]
      have := cle_plain [c] (toCrlf cs ++ rest) (by simpa using Ne.symm hc)
      simp only [List.cons_append, List.nil_append] at this ⊢
      rw [this, ih hcs]

theorem cle_map_toCrlf (ls : List Str) (h : ∀ l ∈ ls, '\r' ∉ l) :
    cle ((ls.map toCrlf).flatten) = ls.flatten := by
  induction ls with
  | nil => rfl
  | cons l ls ih =>
    simp only [List.map_cons, List.flatten_cons]
    rw [cle_toCrlf l (h l (by simp)), ih (fun l' hl' => h l' (by simp [hl']))]

theorem fileLines_flatten (s : Str) : (fileLines s).flatten = s := by
  induction s with
  | nil => rfl
  | cons c cs ih =>
    simp only [fileLines]
    split
    · rename_i hc; subst hc; simp [ih]
    · split
      · rename_i hnil
        rw [hnil] at ih
        simp at ih
        simp [ih.symm]
      · rename_i l ls hls
        rw [hls] at ih
        simp at ih ⊢
        exact ih

/-- **C42 (headers by rows).** With `n` rows from row `start` on, the header is exactly the text lines
`start ..< start + n` of the file, with every line break a line feed. The lines of a text made of lines
and breaks are those lines. -/
theorem C42_header_rows (content : Str) (start n : Nat) :
    readHeader content ⟨start, .int n, true⟩ =
      .ok (some (((fileLines (cle content)).take (start + n)).drop start).flatten) := by
  have h1 : ((start : Int) + (n : Int)).toNat = start + n := by omega
  have h2 : ((start : Int)).toNat = start := by omega
  simp only [readHeader, if_true, pickLines, h1, h2]
  rw [cle_map_toCrlf]
  intro l hl hr
  have hmem : l ∈ fileLines (cle content) := List.mem_of_mem_take (List.mem_of_mem_drop hl)
  refine C28_no_cr content ?_
  have := fileLines_flatten (cle content)
  rw [← this]
  exact List.mem_flatten.2 ⟨l, hmem, hr⟩

theorem fileLines_plain (l : Str) (h : '\n' ∉ l) (rest : Str) :
    fileLines (l ++ '\n' :: rest) = (l ++ ['\n']) :: fileLines rest := by
  induction l with
  | nil => simp [fileLines]
  | cons c cs ih =>
    have hc : c ≠ '\n' := fun e => h (by simp [e])
    have hcs : '\n' ∉ cs := fun e => h (by simp [e])
    simp only [List.cons_append, fileLines, if_neg hc, ih hcs]

/-- the lines of a text: each line with its line feed, then the last line if it is not empty -/
theorem C42_lines_of_text (ls : List Str) (last : Str) (h : ∀ l ∈ ls, '\n' ∉ l) (hl : '\n' ∉ last) :
    fileLines ((ls.map (· ++ ['\n'])).flatten ++ last) =
      ls.map (· ++ ['\n']) ++ (if last = [] then [] else [last]) := by
  induction ls with
  | nil =>
    simp only [List.map_nil, List.flatten_nil, List.nil_append]
    induction last with
    | nil => rfl
    | cons c cs ih =>
      have hc : c ≠ '\n' := fun e => hl (by simp [e])
      have hcs : '\n' ∉ cs := fun e => hl (by simp [e])
      simp only [fileLines, if_neg hc, ih hcs]
      by_cases h0 : cs = []
      · subst h0; rfl
      · simp [h0]
  | cons l ls ih =>
    have h1 := h l (by simp)
    simp only [List.map_cons, List.flatten_cons, List.append_assoc, List.cons_append, List.nil_append]
    rw [fileLines_plain l h1, ih (fun l' hl' => h l' (by simp [hl']))]

/-- **C42 (headers by bytes).** With a length of at most 80000 bytes, the header is exactly the bytes from
`start` on, as ISO-8859-1 text with line feeds; longer headers are cut at 80000 bytes. -/
theorem C42_header_bytes (content : Str) (start n : Nat) :
    readHeader content ⟨start, .int n, false⟩ =
      .ok (some (cle ((content.drop start).take (min n 80000)))) := by
  have h2 : ((start : Int)).toNat = start := by omega
  have h3 : (min (n : Int) 80000).toNat = min n 80000 := by omega
  simp only [readHeader]
  rw [if_neg (by simp), if_neg (by omega), if_neg (by omega), if_neg (by omega), h2, h3]

/-- **C42 (ASCII tables).** The text given to the table parser is exactly the `n` bytes from `start` on,
or everything from `start` on when the length is unknown. -/
theorem C42_table_bytes (content : Str) (start n : Nat) :
    asciiTextByBytes content start (.int n) = .ok ((content.drop start).take n) ∧
    asciiTextByBytes content start .none = .ok (content.drop start) := by
  have h2 : ((start : Int)).toNat = start := by omega
  have h3 : ((n : Int)).toNat = n := by omega
  constructor
  · simp only [asciiTextByBytes]
    rw [if_neg (by omega), if_neg (by omega), if_neg (by omega), h2, h3]
  · simp only [asciiTextByBytes]
    rw [if_neg (by omega), h2]

/-- end of a row in a file -/
def eol (crlf : Bool) : Str := if crlf then ['\r', '\n'] else ['\n']

theorem fileLines_rows (rows : List Str) (crlf : Bool) (h : ∀ r ∈ rows, '\n' ∉ r) :
    fileLines (rows.map (· ++ eol crlf)).flatten = rows.map (· ++ eol crlf) := by
  induction rows with
  | nil => rfl
  | cons r rs ih =>
    have ih := ih (fun x hx => h x (List.mem_cons_of_mem _ hx))
    have hr := h r (by simp)
    cases crlf
    · simp only [List.map_cons, List.flatten_cons, eol, Bool.false_eq_true, if_false, List.append_assoc,
        List.singleton_append] at ih ⊢
      rw [fileLines_plain _ hr, ih]
    · have h' : '\n' ∉ r ++ ['\r'] := by simp [hr]
      have e : r ++ (['\r', '\n'] ++ (rs.map (· ++ ['\r', '\n'])).flatten) =
          (r ++ ['\r']) ++ '\n' :: (rs.map (· ++ ['\r', '\n'])).flatten := by simp
      simp only [List.map_cons, List.flatten_cons, eol, if_true, List.append_assoc] at ih ⊢
      rw [e, fileLines_plain _ h', ih]; simp

theorem cle_eol (crlf : Bool) (rest : Str) : cle (eol crlf ++ rest) = '\n' :: cle rest := by
  cases crlf
  · exact cle_plain ['\n'] rest (by decide)
  · rfl

theorem rows_of_joined (rows : List Str) (crlf : Bool)
    (h : ∀ r ∈ rows, '\n' ∉ r ∧ '\r' ∉ r ∧ r ≠ []) :
    (splitOn '\n' (cle (join c!"\r\n" (rows.map (· ++ eol crlf))))).filter (fun l => !l.isEmpty) = rows := by
  induction rows with
  | nil => rfl
  | cons r rs ih =>
    have ih := ih (fun x hx => h x (List.mem_cons_of_mem _ hx))
    obtain ⟨h1, h2, h3⟩ := h r (by simp)
    have hf : (!r.isEmpty) = true := by cases r <;> simp at h3 ⊢
    cases rs with
    | nil =>
      simp only [List.map_cons, List.map_nil, join]
      rw [cle_plain _ _ h2]
      have := cle_eol crlf []
      simp only [List.append_nil, cle] at this
      rw [this, splitOn_append _ _ _ h1]
      simp only [splitOn, List.filter_cons, hf, if_true]
      simp
    | cons r' rs' =>
      have e : join c!"\r\n" ((r :: r' :: rs').map (· ++ eol crlf)) =
          r ++ (eol crlf ++ (eol true ++ join c!"\r\n" ((r' :: rs').map (· ++ eol crlf)))) := by
        simp [join, eol]
      rw [e, cle_plain _ _ h2, cle_eol, cle_eol, splitOn_append _ _ _ h1]
      rw [show ('\n' :: cle (join c!"\r\n" ((r' :: rs').map (· ++ eol crlf)))) =
        [] ++ '\n' :: cle (join c!"\r\n" ((r' :: rs').map (· ++ eol crlf))) from rfl,
        splitOn_append _ _ _ (by simp)]
      rw [List.filter_cons, if_pos hf, List.filter_cons, if_neg (by simp), ih]

/-- **C42 (ASCII tables by rows).** A table at rows `start ... start + n - 1` of a file of text rows (ending in
LF or CRLF): the text given to the table parser has, blank lines apart (the parser skips them), exactly those
rows, unchanged and in order; with an unknown length, all rows from `start` on. Rows beyond the end of the file are
an error, not a shorter table. -/
theorem C42_table_rows (rows : List Str) (crlf : Bool) (h : ∀ r ∈ rows, '\n' ∉ r ∧ '\r' ∉ r ∧ r ≠ [])
    (start n : Nat) :
    (start + n ≤ rows.length → ∃ text,
      asciiTextByRows (rows.map (· ++ eol crlf)).flatten start (.int n) = .ok text ∧
      (splitOn '\n' (cle text)).filter (fun l => !l.isEmpty) = (rows.drop start).take n) ∧
    (start ≤ rows.length → ∃ text,
      asciiTextByRows (rows.map (· ++ eol crlf)).flatten start .none = .ok text ∧
      (splitOn '\n' (cle text)).filter (fun l => !l.isEmpty) = rows.drop start) ∧
    (rows.length < start + n → ∃ e,
      asciiTextByRows (rows.map (· ++ eol crlf)).flatten start (.int n) = .error e) := by
  have hl := fileLines_rows rows crlf (fun r hr => (h r hr).1)
  have hs : ((start : Int)).toNat = start := by omega
  have hn : ((n : Int)).toNat = n := by omega
  have hd : (rows.map (· ++ eol crlf)).drop start = (rows.drop start).map (· ++ eol crlf) := by
    rw [List.map_drop]
  refine ⟨fun hle => ?_, fun hle => ?_, fun hgt => ?_⟩
  · refine ⟨join c!"\r\n" (((rows.drop start).take n).map (· ++ eol crlf)), ?_, ?_⟩
    · simp only [asciiTextByRows, hl, List.length_map, hs, hn, hd]
      rw [if_neg (by omega), if_neg (by simp only [List.length_drop]; omega), List.map_take]
    · exact rows_of_joined _ _ (fun r hr => h r (List.mem_of_mem_drop (List.mem_of_mem_take hr)))
  · refine ⟨join c!"\r\n" ((rows.drop start).map (· ++ eol crlf)), ?_, ?_⟩
    · simp only [asciiTextByRows, hl, List.length_map, hs, hd]
      rw [if_neg (by omega)]
    · exact rows_of_joined _ _ (fun r hr => h r (List.mem_of_mem_drop hr))
  · refine ⟨.valueError, ?_⟩
    simp only [asciiTextByRows, hl, List.length_map, hs, hn, hd]
    by_cases hc : (rows.length : Int) < start
    · rw [if_pos hc]
    · rw [if_neg hc, if_pos (by simp only [List.length_drop]; omega)]

example : asciiTextByRows c!"HEAD\r\n1,2\r\n3,4\r\n" 1 (.int 2) = .ok c!"1,2\r\n\r\n3,4\r\n" := rfl

/-! ### C43: FITS -/

/-- **C43.** The offset chosen for a FITS object is that of a header when a header is wanted and of a data
part when data is wanted, and it is the first of the four readings of the pointer (0- or 1-based, bytes
or records) that fits; there is an error exactly when none fits. -/
theorem C43_fits_offset (isHeader : Bool) (target : Int) (hdus : List (Int × Int)) :
    (∀ t, agnosticFits isHeader target hdus = .ok t →
      hduPart hdus t = some isHeader ∧
      (t = target - 1 ∨
       t = target ∧ hduPart hdus (target - 1) ≠ some isHeader ∨
       t = (target - 1) * 2880 ∧ hduPart hdus (target - 1) ≠ some isHeader ∧ hduPart hdus target ≠ some isHeader ∨
       t = target * 2880 ∧ hduPart hdus (target - 1) ≠ some isHeader ∧ hduPart hdus target ≠ some isHeader ∧
         hduPart hdus ((target - 1) * 2880) ≠ some isHeader)) ∧
    ((∃ e, agnosticFits isHeader target hdus = .error e) ↔
      ∀ t ∈ [target - 1, target, (target - 1) * 2880, target * 2880], hduPart hdus t ≠ some isHeader) := by
  unfold agnosticFits
  by_cases h1 : hduPart hdus (target - 1) = some isHeader
  · simp [List.find?, h1]
  · have e1 : (hduPart hdus (target - 1) == some isHeader) = false := beq_false_of_ne h1
    by_cases h2 : hduPart hdus target = some isHeader
    · simp [List.find?, e1, h1, h2]
    · have e2 : (hduPart hdus target == some isHeader) = false := beq_false_of_ne h2
      by_cases h3 : hduPart hdus ((target - 1) * 2880) = some isHeader
      · simp [List.find?, e1, e2, h1, h2, h3]
      · have e3 : (hduPart hdus ((target - 1) * 2880) == some isHeader) = false := beq_false_of_ne h3
        by_cases h4 : hduPart hdus (target * 2880) = some isHeader
        · simp [List.find?, e1, e2, e3, h1, h2, h3, h4]
        · have e4 : (hduPart hdus (target * 2880) == some isHeader) = false := beq_false_of_ne h4
          simp [List.find?, e1, e2, e3, e4, h1, h2, h3, h4]

/-- an offset known as a header (data part) is the header (data) offset of some HDU of the file, and every
HDU offset is known -/
theorem C43_index_is_of_file (hdus : List (Int × Int)) (t : Int) :
    (∀ b, hduPart hdus t = some b → ∃ u ∈ hdus, t = if b then u.1 else u.2) ∧
    (∀ u ∈ hdus, hduPart hdus u.1 ≠ none ∧ hduPart hdus u.2 ≠ none) := by
  constructor
  · intro b h
    unfold hduPart at h
    rw [Option.map_eq_some_iff] at h
    obtain ⟨e, he, rfl⟩ := h
    have hm := List.mem_of_find?_eq_some he
    have ht := List.find?_some he
    simp only [decide_eq_true_eq] at ht
    rw [List.mem_reverse, hduIndex, List.mem_flatMap] at hm
    obtain ⟨u, hu, hu'⟩ := hm
    refine ⟨u, hu, ?_⟩
    simp only [List.mem_cons, List.not_mem_nil, or_false] at hu'
    rcases hu' with rfl | rfl
    · simpa using ht.symm
    · simpa using ht.symm
  · intro u hu
    have key : ∀ x b, (x, b) ∈ hduIndex hdus → hduPart hdus x ≠ none := by
      intro x b hx h
      unfold hduPart at h
      rw [Option.map_eq_none_iff, List.find?_eq_none] at h
      have := h (x, b) (List.mem_reverse.2 hx)
      simp at this
    exact ⟨key u.1 true (by rw [hduIndex, List.mem_flatMap]; exact ⟨u, hu, by simp⟩),
      key u.2 false (by rw [hduIndex, List.mem_flatMap]; exact ⟨u, hu, by simp⟩)⟩

/-- a primary HDU with a one-record header and no data, then a table: `^TABLE` = record 3 -/
example : agnosticFits false 3 [(0, 2880), (2880, 5760)] = .ok 5760 := rfl

end Verif.Locate
