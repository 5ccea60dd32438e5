/-
C01, C02, C29: label text to tree.
-/
import Verif.Lemmas.Pvl

namespace Verif.Pvl
open Verif.Py Spec

/-- **C01.** A statement list that writes down a tree of parameters and blocks (any depth, width,
empty blocks, repeated names, either opener and closer spelling) parses to exactly that tree, with
nothing left over, and the flat list is every key of every level once, a block's name after its
contents. -/
theorem C01_parse_written {t : MDict Str} {ss : List Stmt} (h : Written t ss) :
    parseStatements ss = (t, keys t, false) := by
  unfold parseStatements
  simp only [foldl_written h]
  simp [Parser.extend]

/-- Non-vacuity: a nested label with a duplicate parameter and an empty block is `Written`. -/
example : Written
    [(c!"A", .leaf c!"1"), (c!"TABLE", .node [(c!"A", .leaf c!"2"), (c!"COLUMN", .node []),
      (c!"COLUMN", .node [(c!"NAME", .leaf c!"X")])])]
    [(c!"A", c!"1"), (c!"OBJECT", c!"TABLE"), (c!"A", c!"2"), (c!"OBJECT", c!"COLUMN"),
     (c!"END_OBJECT", c!""), (c!"BEGIN_OBJECT", c!"COLUMN"), (c!"NAME", c!"X"),
     (c!"END_GROUP", c!"COLUMN"), (c!"END_OBJECT", c!"")] := by
  have pl : ∀ k : Str, k ∉ openers → startsWith k c!"END" = false → Plain k := by
    intro k h1 h2
    refine ⟨h1, fun hc => ?_⟩
    rw [← startsWith_closer, h2] at hc
    cases hc
  refine .leaf (pl _ (by decide) (by decide)) ?_
  refine .block (body := [(c!"A", c!"2"), (c!"OBJECT", c!"COLUMN"),
     (c!"END_OBJECT", c!""), (c!"BEGIN_OBJECT", c!"COLUMN"), (c!"NAME", c!"X"),
     (c!"END_GROUP", c!"COLUMN")]) (by decide) ⟨c!"_OBJECT", rfl⟩ (by decide) ?_ .nil
  refine .leaf (pl _ (by decide) (by decide)) ?_
  refine .block (body := []) (by decide) ⟨c!"_OBJECT", rfl⟩ (by decide) .nil ?_
  exact .block (body := [(c!"NAME", c!"X")]) (by decide) ⟨c!"_GROUP", rfl⟩ (by decide)
    (.leaf (pl _ (by decide) (by decide)) .nil) .nil

/-- **C01 (arbitrary input).** For *every* statement list, well-formed or not: if no block is left
open, the flat list is a permutation of the keys of the returned tree. -/
theorem C01_params_exact (ss : List Stmt) (h : (parseStatements ss).2.2 = false) :
    (parseStatements ss).2.1.Perm (keys (parseStatements ss).1) := by
  have := foldl_perm ss {} (by simp [keys])
  unfold parseStatements at h ⊢
  have hs : (ss.foldl Parser.step {}).stack = [] := by
    cases hst : (ss.foldl Parser.step {}).stack with
    | nil => rfl
    | cons a l => simp [hst] at h
  simpa [hs] using this

/-- **C01 (arbitrary input).** Even when blocks are left open, every key of the returned tree is
counted in the flat list at least as often as it occurs in the tree (so `metaget` never misses it). -/
theorem C01_params_cover (ss : List Stmt) (k : Str) :
    (keys (parseStatements ss).1).count k ≤ (parseStatements ss).2.1.count k := by
  have := foldl_perm ss {} (by simp [keys])
  unfold parseStatements
  simp only
  rw [this.count_eq k, List.count_append]
  omega

/-- **C30 (limit of C01).** Parameters whose own name begins with `END`: such a parameter at the top level
of a label is silently lost, whatever its value (e.g. `END_TIME = ...`). -/
theorem C30_END_parameter_lost_at_top_level (ss₁ ss₂ : List Stmt) (t : MDict Str) (h : Written t ss₁)
    (k v : Str) (hk : Closer k) (hko : k ∉ openers) :
    parseStatements (ss₁ ++ (k, v) :: ss₂) = parseStatements (ss₁ ++ ss₂) := by
  unfold parseStatements
  simp only [List.foldl_append, foldl_written h, List.foldl_cons]
  have : ((({} : Parser).extend t (keys t)).step (k, v)) = ({} : Parser).extend t (keys t) := by
    unfold Parser.step
    rw [if_neg (show ¬ (k, v).1 ∈ blockInitials from hko), if_pos ((startsWith_closer k).2 hk)]
    simp [Parser.stepOut, Parser.extend]
  rw [this]

/-- Witness: the parameter `END_TIME` satisfies the hypotheses above. -/
example : Closer c!"END_TIME" ∧ c!"END_TIME" ∉ openers := ⟨⟨c!"_TIME", rfl⟩, by decide⟩

/-- **C30.** Anywhere in a label, a parameter beginning with `END` is read as the end of the
innermost block, whatever its name and value: the parse is that of the label with the statement
replaced by `END_OBJECT`. -/
theorem C30_END_parameter_is_a_block_end (ss₁ ss₂ : List Stmt)
    (k v : Str) (hk : Closer k) (hko : k ∉ openers) :
    parseStatements (ss₁ ++ (k, v) :: ss₂) = parseStatements (ss₁ ++ (c!"END_OBJECT", []) :: ss₂) := by
  have : ∀ p : Parser, p.step (k, v) = p.step (c!"END_OBJECT", []) := by
    intro p
    unfold Parser.step
    rw [if_neg (show ¬ (k, v).1 ∈ blockInitials from hko), if_pos ((startsWith_closer k).2 hk),
      if_neg (by decide), if_pos (by decide)]
  unfold parseStatements
  simp only [List.foldl_append, List.foldl_cons, this]

/-- Witness: `ENDIAN` in an IMAGE block closes the block, so `LINES` moves to the parent. -/
example :
    (parseStatements [(c!"OBJECT", c!"IMAGE"), (c!"ENDIAN", c!"LITTLE"), (c!"LINES", c!"3"),
      (c!"END_OBJECT", c!"")]).1.map Prod.fst = [c!"IMAGE", c!"LINES"] := by decide

/-- **C01.** The `END` statement at the end of a label does not count. -/
theorem C01_parse_stated {t : MDict Str} {ss : List Stmt} (h : Stated t ss) : parseStatements ss = (t, keys t, false) := by
  rcases h with h | ⟨ss', x, rfl, h⟩
  · exact C01_parse_written h
  · rw [C30_END_parameter_lost_at_top_level ss' [] t h c!"END" x ⟨[], rfl⟩ (by decide), List.append_nil, C01_parse_written h]

theorem written_append {t t' : MDict Str} {ss ss' : List Stmt} (h : Written t ss) (h' : Written t' ss') : Written (t ++ t') (ss ++ ss') := by
  induction h with
  | nil => exact h'
  | leaf hk _ ih => exact .leaf hk ih
  | block ho hc hco hk _ _ ih =>
    rw [List.cons_append, List.cons_append, List.append_assoc, List.cons_append]
    exact .block ho hc hco hk ih

/-- **C30 (limit of C01).** `END` does not end a label: statements after it are read like those before it. -/
theorem C30_statements_after_END {t t' : MDict Str} {ss ss' : List Stmt} (x : Str) (h : Written t ss) (h' : Stated t' ss') :
    parseStatements (ss ++ (c!"END", x) :: ss') = (t ++ t', keys (t ++ t'), false) := by
  rw [C30_END_parameter_lost_at_top_level ss ss' t h c!"END" x ⟨[], rfl⟩ (by decide)]
  rcases h' with h' | ⟨ss'', y, rfl, h'⟩
  · exact C01_parse_written (written_append h h')
  · exact C01_parse_stated (Or.inr ⟨ss ++ ss'', y, by simp, written_append h h'⟩)

example : parseStatements [(c!"A", c!"1"), (c!"END", []), (c!"A", c!"2")] = ([(c!"A", .leaf c!"1"), (c!"A", .leaf c!"2")], [c!"A", c!"A"], false) :=
  C30_statements_after_END [] (.leaf ⟨by decide, by rintro ⟨r, h⟩; simp at h⟩ .nil) (Or.inl (.leaf ⟨by decide, by rintro ⟨r, h⟩; simp at h⟩ .nil))

/-- **C02.** Text made of well-laid-out statements (any indentation, trailing blanks or CRs, blank
lines, continuation lines) splits into exactly those statements, in order. -/
theorem C02_statements {phys ls : List Str} {ss : List Stmt} (hp : Physical phys ls)
    (hl : Layouts ls ss) : chunkStatements (trimmedLines (join c!"\n" phys)) = ss := by
  rw [trimmedLines_physical hp, chunkStatements_layouts hl]

/-- **C01+C02.** From the characters of a comment-free label to the tree it denotes. -/
theorem C01_C02_text_roundtrip {phys ls : List Str} {ss : List Stmt} {t : MDict Str}
    (hp : Physical phys ls) (hl : Layouts ls ss) (hw : Stated t ss)
    (hc : ¬ ∃ a b, join c!"\n" phys = a ++ '/' :: '*' :: b) :
    parseText (join c!"\n" phys) = (t, keys t, false) := by
  unfold parseText
  rw [stripComments_id _ hc, C02_statements hp hl, C01_parse_stated hw]

/-- Non-vacuity: a small CRLF label with a continuation line. -/
example : Physical [c!"NOTE = \r", c!"  \"a b\"\r", c!"END"] [c!"NOTE =", c!"\"a b\"", c!"END"] ∧
    Layouts [c!"NOTE =", c!"\"a b\"", c!"END"] [(c!"NOTE", c!"\"a b\""), (c!"END", [])] := by
  have tr : ∀ l : Str, (l.head?.all (fun c => !isSpace c) && l.getLast?.all (fun c => !isSpace c)
      && l.all (· ≠ '\n')) = true → Trimmed l := by
    intro l h
    simp only [Bool.and_eq_true, Option.all_eq_true, Bool.not_eq_eq_eq_not, Bool.not_true] at h
    refine ⟨h.1.1, h.1.2, ?_⟩
    have := h.2
    intro hm
    rw [List.all_eq_true] at this
    have := this _ hm
    simp at this
  constructor
  · refine .line (w₁ := []) (l := c!"NOTE =") (w₂ := c!" \r") ?_ (by decide) ?_ (by decide)
      (tr _ (by decide)) (by decide) ?_
    · simp [Blank]
    · intro c hc; revert hc; revert c; simp [isSpace]
    refine .line (w₁ := c!"  ") (l := c!"\"a b\"") (w₂ := c!"\r") ?_ (by decide) ?_ (by decide)
      (tr _ (by decide)) (by decide) ?_
    · intro c hc; simp at hc; subst hc; decide
    · intro c hc; simp at hc; subst hc; decide
    exact .line (w₁ := []) (l := c!"END") (w₂ := []) (by simp [Blank]) (by decide) (by simp [Blank])
      (by decide) (tr _ (by decide)) (by decide) .nil
  · refine .cons (ls := [c!"NOTE =", c!"\"a b\""]) (rest := [c!"END"]) ?_
      (.cons (ls := [c!"END"]) (rest := []) (.fin (by simp)) .nil)
    have := Layout.assign (key := c!"NOTE") (w₁ := c!" ") (w₂ := []) (head := [])
      (conts := [c!"\"a b\""]) (tr _ (by decide)) (by decide) (by decide) (tr _ (by decide))
      (by decide) (by intro c hc; simp at hc; subst hc; decide) (by decide) (by simp [Blank])
      (by decide) (by simp) (by intro c hc; simp at hc; rcases hc with rfl | rfl | rfl | rfl | rfl | rfl <;> decide)
      (by rintro ⟨r, hr⟩; simp at hr)
      (by
        intro l hl
        simp at hl
        subst hl
        refine ⟨tr _ (by decide), by decide, Or.inr ⟨by decide, by decide, ?_⟩⟩
        rintro ⟨r, hr⟩; simp at hr)
    exact this

/-- **C02 (comments).** A comment that fits on one line is removed up to and including its line end;
text before it is untouched. -/
theorem C02_comment_removed (a body b : Str) (e : Char) (he : e = '\n' ∨ e = '\r')
    (ha : ¬ ∃ x y, a = x ++ '/' :: '*' :: y) (h1 : '\r' ∉ body) (h2 : '\n' ∉ body)
    (h3 : ¬ ∃ x y, body = x ++ '/' :: '*' :: y) :
    stripComments (a ++ '/' :: '*' :: (body ++ e :: b)) = a ++ '\n' :: stripComments b := by
  rw [stripComments_prefix a _ ha (by simp)]
  congr 1
  rw [stripComments]
  rw [commentEnd_line body b h1 h2 h3 e he]

example : stripComments c!"A = 1 /* one */\nB = 2" = c!"A = 1 \nB = 2" :=
  (C02_comment_removed c!"A = 1 " c!" one */" c!"B = 2" '\n' (Or.inl rfl)
    (noComment _ (by decide)) (by decide) (by decide) (noComment _ (by decide))).trans
    (by rw [stripComments_id _ (noComment _ (by decide))]; rfl)

/-- **C31 (limit of C02).** A comment that goes on over a line end is only removed up to that line
end; the rest of the comment stays in the label text. -/
theorem C31_multiline_comment_tail_kept (a body tail : Str) (e : Char) (he : e = '\n' ∨ e = '\r')
    (ha : ¬ ∃ x y, a = x ++ '/' :: '*' :: y) (h1 : '\r' ∉ body) (h2 : '\n' ∉ body)
    (h3 : ¬ ∃ x y, body = x ++ '/' :: '*' :: y) (h4 : ¬ ∃ x y, tail = x ++ '/' :: '*' :: y) :
    stripComments (a ++ '/' :: '*' :: (body ++ e :: tail)) = a ++ '\n' :: tail := by
  rw [C02_comment_removed a body tail e he ha h1 h2 h3, stripComments_id _ h4]

/-- Witness: the tail of a two-line comment becomes part of the preceding value. -/
example :
    (parseText c!"A = 1 /* first\nsecond line */\nB = 2").1.map (fun kv => (kv.1, match kv.2 with
      | .leaf v => v
      | .node _ => []))
      = [(c!"A", c!"1second line */"), (c!"B", c!"2")] := by
  have h : stripComments c!"A = 1 /* first\nsecond line */\nB = 2"
      = c!"A = 1 \nsecond line */\nB = 2" :=
    (C02_comment_removed c!"A = 1 " c!" first" c!"second line */\nB = 2" '\n' (Or.inl rfl)
      (noComment _ (by decide)) (by decide) (by decide) (noComment _ (by decide))).trans
      (by rw [stripComments_id _ (noComment _ (by decide))]; rfl)
  unfold parseText
  rw [h]
  decide

/-- The specification of a multi-line value: its lines separated by one space. -/
def spacedValue (head : Str) (conts : List Str) : Str :=
  join c!" " ((if head = [] then [] else [head]) ++ conts)

/-- **C29.** When the value begins on the line after `KEY =`, the words of the lines stay
separated: the parsed value is the lines joined by single spaces. -/
theorem C29_multiline_value {key w : Str} {conts : List Str}
    (hk : Trimmed key) (hne : key ≠ []) (hke : '=' ∉ key) (hw : Blank w) (hwn : '\n' ∉ w)
    (hu : UpperHead (key ++ w ++ c!"=")) (hno : ¬ ∃ r, key ++ w ++ c!"=" = c!"END_OBJECT" ++ r)
    (hc : ∀ l ∈ conts, Continuation l) :
    chunkStatements ((key ++ w ++ c!"=") :: conts) = [(key, spacedValue [] conts)] := by
  have hl := Layout.assign (key := key) (w₁ := w) (w₂ := []) (head := []) (conts := conts) hk hne hke
    ⟨by simp, by simp, by simp⟩ (by simp) hw hwn (by simp [Blank]) (by simp) (by simp)
    (by simpa using hu) (by simpa using hno) hc
  have := chunkStatements_layouts (.cons hl .nil)
  simpa [spacedValue] using this

/-- **C33 (limit of C29).** For every multi-line value that begins on the `KEY =` line: the last word of the
first line and the first word of the second are glued together (the value is the head followed directly by the continuation lines). -/
theorem C33_first_line_glued {key w₁ w₂ head : Str} {conts : List Str}
    (h : Layout ((key ++ w₁ ++ c!"=" ++ w₂ ++ head) :: conts) (key, head ++ join c!" " conts))
    (hhead : head ≠ []) (hconts : conts ≠ []) :
    chunkStatements ((key ++ w₁ ++ c!"=" ++ w₂ ++ head) :: conts)
      = [(key, head ++ join c!" " conts)] ∧
    chunkStatements ((key ++ w₁ ++ c!"=" ++ w₂ ++ head) :: conts)
      ≠ [(key, spacedValue head conts)] := by
  have := chunkStatements_layouts (.cons h .nil)
  rw [List.append_nil] at this
  refine ⟨this, ?_⟩
  rw [this]
  simp only [ne_eq, List.cons.injEq, Prod.mk.injEq, true_and, and_true, spacedValue, if_neg hhead]
  cases conts with
  | nil => exact absurd rfl hconts
  | cons c cs =>
    intro e
    have := congrArg List.length e
    simp [join] at this

/-- The witness a user sees: `NOTE = "dark` / `side"` reads as `"darkside"`. -/
example : chunkStatements [c!"NOTE = \"dark", c!"side\""] = [(c!"NOTE", c!"\"darkside\"")] := by
  decide

end Verif.Pvl
