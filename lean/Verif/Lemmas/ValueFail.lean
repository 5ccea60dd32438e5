/-
Lemmas about texts that are not Python literals.
-/
import Verif.Lemmas.Value
import Mathlib.Data.List.TakeWhile

namespace Verif.Value
open Verif.Py Verif.Literal Verif.Literal.Spec Verif.PyLit Verif.Value.Spec

/-- Python refuses the text with an error that pdr catches -/
def Fails (s : Str) : Prop := litEval s = .error .syntaxError ∨ litEval s = .error .valueError

theorem fails_lex {s : Str} (h : lex s.length s = none) : Fails s := by
  left; unfold litEval; rw [h]

theorem fails_parse {s : Str} {ts : List Tok} (h : lex s.length s = some ts) (h' : parse ts = none) : Fails s := by
  left; unfold litEval; rw [h]; simp only [h']

theorem fails_convert {s : Str} {ts : List Tok} {e : Expr} (h : lex s.length s = some ts) (h' : parse ts = some e)
    (h'' : convert e = .error .valueError) : Fails s := by
  right; unfold litEval; rw [h]; simp only [h', h'']

/-! ### texts that begin with a word -/

theorem letter_idStart {c : Char} (h : Letter c) : isIdStart c = true := by
  have e1 : ('A' : Char).toNat = 65 := rfl
  have e2 : ('Z' : Char).toNat = 90 := rfl
  have e3 : ('a' : Char).toNat = 97 := rfl
  have e4 : ('z' : Char).toNat = 122 := rfl
  unfold isIdStart
  simp only [Bool.or_eq_true, Bool.and_eq_true, decide_eq_true_eq, beq_iff_eq]
  rcases h with h | h | h
  · left; left; left; omega
  · left; left; right; omega
  · left; right; exact h

theorem idCont_iff {c : Char} (h : c.toNat < 128) :
    isIdCont c = true ↔ Letter c ∨ ('0'.toNat ≤ c.toNat ∧ c.toNat ≤ '9'.toNat) := by
  have e0 : ('0' : Char).toNat = 48 := rfl
  have e9 : ('9' : Char).toNat = 57 := rfl
  have e1 : ('A' : Char).toNat = 65 := rfl
  have e2 : ('Z' : Char).toNat = 90 := rfl
  have e3 : ('a' : Char).toNat = 97 := rfl
  have e4 : ('z' : Char).toNat = 122 := rfl
  unfold isIdCont isIdStart isDigit Letter
  simp only [Bool.or_eq_true, Bool.and_eq_true, decide_eq_true_eq, beq_iff_eq]
  constructor
  · rintro ((((h' | h') | h') | h') | h')
    · left; left; omega
    · left; right; left; omega
    · left; right; right; exact h'
    · omega
    · right; omega
  · rintro ((h' | h' | h') | h')
    · left; left; left; left; omega
    · left; left; left; right; omega
    · left; left; right; exact h'
    · right; omega

theorem word_cont {w : Str} (h : Word w) : ∀ c ∈ w, isIdCont c = true := by
  obtain ⟨⟨c, r, rfl, hc, hr⟩, _⟩ := h
  have lt : ∀ x : Char, Letter x ∨ ('0'.toNat ≤ x.toNat ∧ x.toNat ≤ '9'.toNat) → isIdCont x = true := by
    intro x hx
    refine (idCont_iff ?_).2 hx
    have e9 : ('9' : Char).toNat = 57 := rfl
    have e2 : ('Z' : Char).toNat = 90 := rfl
    have e4 : ('z' : Char).toNat = 122 := rfl
    rcases hx with (h | h | h) | h
    · omega
    · omega
    · subst h; decide
    · omega
  intro x hx
  rcases List.mem_cons.1 hx with rfl | hx
  · exact lt _ (Or.inl hc)
  · exact lt _ (hr x hx)

theorem letter_misc {c : Char} (h : Letter c) : isDigit c = false ∧ c ≠ '.' ∧ c ≠ '"' ∧ c ≠ '\'' ∧ isBlank c = false ∧ c ≠ '#' := by
  have hs := letter_idStart h
  have hd : isDigit c = false := by
    have e1 : ('A' : Char).toNat = 65 := rfl
    have e3 : ('a' : Char).toNat = 97 := rfl
    unfold isDigit
    cases hd : (decide (48 ≤ c.toNat) && decide (c.toNat ≤ 57)) with
    | false => rfl
    | true =>
      simp only [Bool.and_eq_true, decide_eq_true_eq] at hd
      rcases h with h | h | h
      · omega
      · omega
      · subst h; revert hd; decide
  refine ⟨hd, ?_, ?_, ?_, ?_, ?_⟩
  · rintro rfl; revert hs; decide
  · rintro rfl; revert hs; decide
  · rintro rfl; revert hs; decide
  · unfold isBlank
    simp only [Bool.or_eq_false_iff, beq_eq_false_iff_ne]
    refine ⟨⟨?_, ?_⟩, ?_⟩ <;> rintro rfl <;> revert hs <;> decide
  · rintro rfl; revert hs; decide

/-- a word is one token -/
theorem nextTok_word {c : Char} {r rest : Str} (h : Word (c :: r))
    (hr : ∀ x, rest.head? = some x → isIdCont x = false ∧ x ≠ '"' ∧ x ≠ '\'') : nextTok c (r ++ rest) = some (.name (c :: r), rest) := by
  have hcont := word_cont h
  obtain ⟨⟨c', r', heq, hc, _⟩, _⟩ := h
  injection heq with h1 h2
  subst h1; subst h2
  obtain ⟨m1, m2, m3, m4, _, _⟩ := letter_misc hc
  have hdot : (c == '.') = false := by simpa using m2
  have htw : (c :: (r ++ rest)).takeWhile isIdCont = c :: r := by
    rw [← List.cons_append, List.takeWhile_append_of_pos hcont]
    cases rest with
    | nil => simp
    | cons x t => rw [List.takeWhile_cons_of_neg (by rw [(hr x rfl).1]; exact Bool.false_ne_true), List.append_nil]
  have hdw : (c :: (r ++ rest)).dropWhile isIdCont = rest := by
    rw [← List.cons_append, List.dropWhile_append_of_pos hcont]
    cases rest with
    | nil => simp
    | cons x t => rw [List.dropWhile_cons_of_neg (by rw [(hr x rfl).1]; exact Bool.false_ne_true)]
  unfold nextTok
  rw [m1, hdot, Bool.false_and, Bool.false_or, if_neg Bool.false_ne_true, if_neg (by rintro (h | h); exact m3 h; exact m4 h),
    letter_idStart hc, if_pos rfl]
  unfold nameTok
  simp only [htw, hdw]
  rw [if_neg]
  rintro (h | h)
  · exact (hr _ h).2.1 rfl
  · exact (hr _ h).2.2 rfl

theorem lx_word {w : Str} (h : Word w) : Lx w [.name w] Ends := by
  have h' := h
  obtain ⟨⟨c, r, rfl, hc, _⟩, _⟩ := h'
  obtain ⟨_, _, _, _, m5, m6⟩ := letter_misc hc
  refine lx_tok m5 m6 (fun rest hrest => nextTok_word h ?_)
  intro x hx
  obtain ⟨a, _, b, c⟩ := hrest x hx
  exact ⟨a, b, c⟩

theorem nameExpr_word {w : Str} (h : Word w) : nameExpr w = .name := by
  obtain ⟨_, h1, h2, h3⟩ := h
  unfold nameExpr
  rw [if_neg h1, if_neg h2, if_neg h3]

/-- expressions that begin with a name -/
inductive Left : Expr → Prop
  | name : Left .name
  | binop {b : Bool} {e f : Expr} : Left e → Left (.binop b e f)

theorem left_real {e : Expr} (h : Left e) : isSignedReal e = false := by
  cases h <;> rfl

theorem left_fails {e : Expr} (h : Left e) : convert e = .error .valueError := by
  cases h with
  | name => rfl
  | @binop b e f h => simp [convert, left_real h]

theorem sumRest_left {f : Parser} {n : Nat} {e e' : Expr} {ts ts' : List Tok} (he : Left e)
    (h : sumRest f n e ts = some (e', ts')) : Left e' := by
  induction n generalizing e ts with
  | zero => cases h
  | succ n ih =>
    unfold sumRest at h
    split at h
    · split at h
      · cases h
      · exact ih (.binop he) h
    · split at h
      · split at h
        · cases h
        · exact ih (.binop he) h
      · injection h with h; injection h with h _; rw [← h]; exact he

theorem expr_left {d : Nat} {w : Str} {ts ts' : List Tok} {e : Expr} (hw : Word w) (hs : emptySet w ts = false)
    (h : expr d (.name w :: ts) = some (e, ts')) : Left e := by
  have key : ∀ p, sum (factor (atom p)) (.name w :: ts) = some (e, ts') → Left e := by
    intro p hp
    unfold sum at hp
    have : factor (atom p) (.name w :: ts) = some (.name, ts) := by
      show (if emptySet w ts then some (Expr.set [], ts.drop 2) else some (nameExpr w, ts)) = _
      rw [hs, nameExpr_word hw]
      rfl
    rw [this] at hp
    exact sumRest_left .name hp
  cases d with
  | zero => exact key _ h
  | succ d => exact key _ h

theorem parse_left {w : Str} {ts : List Tok} (hw : Word w) (hs : emptySet w ts = false) :
    parse (.name w :: ts) = none ∨ ∃ e, parse (.name w :: ts) = some e ∧ convert e = .error .valueError := by
  unfold parse
  cases hx : expr maxLevel (.name w :: ts) with
  | none => left; rfl
  | some p =>
    obtain ⟨e, ts'⟩ := p
    have hl := expr_left hw hs hx
    simp only
    by_cases h1 : ts' = [.stop]
    · rw [if_pos h1]; right; exact ⟨e, rfl, left_fails hl⟩
    · rw [if_neg h1]
      by_cases h2 : ts'.head? = some (.op ',')
      · rw [if_pos h2]
        cases hi : items (expr maxLevel) .stop ts'.length ts'.tail with
        | none => left; rfl
        | some q =>
          obtain ⟨es, r⟩ := q
          cases r with
          | nil =>
            right
            refine ⟨_, rfl, ?_⟩
            simp [convert, convertAll, left_fails hl, Except.map]
          | cons _ _ => left; rfl
      · rw [if_neg h2]; left; rfl

/-- **words are no literals** -/
theorem wordy_fails {s : Str} (h : Wordy s) : Fails s := by
  obtain ⟨w, r, rfl, hw, hset, hr⟩ := h
  have hemp : ∀ ts, emptySet w ts = false := by
    intro ts
    unfold emptySet
    rw [show (w == c!"set") = false by simpa using hset, Bool.false_and]
  have hw' := hw
  obtain ⟨⟨c, t, rfl, hc, _⟩, _⟩ := hw'
  obtain ⟨_, _, _, _, m5, m6⟩ := letter_misc hc
  have hlx : Lx (c :: t) [.name (c :: t)] (fun rest => ∀ x, rest.head? = some x → isIdCont x = false ∧ x ≠ '"' ∧ x ≠ '\'') :=
    lx_tok m5 m6 (fun rest hrest => nextTok_word hw hrest)
  obtain ⟨m, _, hm⟩ := hlx r (by
    intro x hx
    obtain ⟨a, b, d, e, f⟩ := hr x hx
    refine ⟨?_, e, f⟩
    cases hi : isIdCont x with
    | false => rfl
    | true => rcases (idCont_iff d).1 hi with h | h; exact absurd h a; exact absurd h b) ((c :: t) ++ r).length (by simp; omega)
  cases hl : lex m r with
  | none => rw [hl] at hm; exact fails_lex hm
  | some ts =>
    rw [hl] at hm
    rcases parse_left (ts := ts) hw (hemp ts) with h | ⟨e, h1, h2⟩
    · exact fails_parse hm h
    · exact fails_convert hm h1 h2

/-! ### dates -/

/-- digits and then something that does not belong to a number -/
theorem number_digits {s : Str} (hs : ∀ c ∈ s, isDigit c = true) (hne : s ≠ []) {rest : Str} (hr : Ends rest) :
    number (s ++ rest) = none ∨ ∃ n, number (s ++ rest) = some (.int n, rest) := by
  have hx : ∀ c, rest.head? = some c → c ≠ 'x' ∧ c ≠ 'X' ∧ c ≠ 'o' ∧ c ≠ 'O' ∧ c ≠ 'b' ∧ c ≠ 'B' := fun c hc => by
    have := (hr c hc).1
    exact ⟨idCont_ne this (by decide), idCont_ne this (by decide), idCont_ne this (by decide), idCont_ne this (by decide),
      idCont_ne this (by decide), idCont_ne this (by decide)⟩
  rw [number_decimal s rest hs hne hx]
  unfold decimalNumber
  rw [digitRun_all s rest hs (ends_digit hr)]
  simp only
  split
  · exact absurd rfl (hr '.' rfl).2.1
  · rw [exponentPart_none (ends_e hr)]
    simp only
    unfold intEnd
    split
    · exact absurd rfl (idCont_ne (hr _ rfl).1 (d := 'j') (by decide))
    · exact absurd rfl (idCont_ne (hr _ rfl).1 (d := 'J') (by decide))
    · rw [finish_ends _ _ (fun c hc => (hr c hc).1)]
      split
      · left; rfl
      · split
        · left; rfl
        · right; exact ⟨_, rfl⟩

/-- digits and then `T` -/
theorem number_T {s : Str} (hs : ∀ c ∈ s, isDigit c = true) (hne : s ≠ []) (rest : Str) : number (s ++ 'T' :: rest) = none := by
  rw [number_decimal s _ hs hne (by intro c hc; injection hc with hc; subst hc; decide)]
  unfold decimalNumber
  rw [digitRun_all s _ hs (by intro c hc; injection hc with hc; subst hc; decide)]
  simp only
  split
  · rename_i heq
    injection heq with h1 _
    exact absurd h1 (by decide)
  rw [exponentPart_none (by intro c hc; injection hc with hc; subst hc; decide)]
  simp only
  show (if _ then none else if _ then none else finish _ ('T' :: rest)) = none
  have : ∀ l, finish l ('T' :: rest) = none := by
    intro l
    unfold finish
    exact if_pos (show isIdCont (Char.ofNat 84) = true by decide)
  rw [this]
  split
  · rfl
  · split <;> rfl

theorem nextTok_digits {c : Char} {r : Str} (hc : isDigit c = true) : nextTok c r = (number (c :: r)).map (fun p => (.num p.1, p.2)) := by
  unfold nextTok
  rw [hc, Bool.true_or, if_pos rfl]

theorem digit_misc {c : Char} (hc : isDigit c = true) : isBlank c = false ∧ c ≠ '#' := by
  constructor
  · unfold isBlank
    simp only [Bool.or_eq_false_iff, beq_eq_false_iff_ne]
    refine ⟨⟨?_, ?_⟩, ?_⟩ <;> rintro rfl <;> revert hc <;> decide
  · rintro rfl; exact absurd hc (by decide)

/-- digits at the start of what is left -/
theorem lex_digits {s : Str} {a : Nat} (h : Numeral 10 s a) {rest : Str} (hr : Ends rest) (n : Nat) (hn : s.length + rest.length ≤ n) :
    lex n (s ++ rest) = none ∨ ∃ k m, rest.length ≤ m ∧ lex n (s ++ rest) = (lex m rest).map (.num (.int k) :: ·) := by
  obtain ⟨hne, hd⟩ := numeral_digits h
  rcases number_digits hd hne hr with h' | ⟨k, h'⟩
  · left
    cases s with
    | nil => exact absurd rfl hne
    | cons c s =>
      have hc := hd c (by simp)
      cases n with
      | zero => simp at hn
      | succ n =>
        rw [List.cons_append, lex, if_neg (by rw [(digit_misc hc).1]; exact Bool.false_ne_true), if_neg (digit_misc hc).2, nextTok_digits hc]
        rw [List.cons_append] at h'
        rw [h']
        rfl
  · right
    cases s with
    | nil => exact absurd rfl hne
    | cons c s =>
      have hc := hd c (by simp)
      cases n with
      | zero => simp at hn
      | succ n =>
        refine ⟨k, n, by simp at hn; omega, ?_⟩
        rw [List.cons_append, lex, if_neg (by rw [(digit_misc hc).1]; exact Bool.false_ne_true), if_neg (digit_misc hc).2, nextTok_digits hc]
        rw [List.cons_append] at h'
        rw [h']
        rfl

theorem lex_digits_T {s : Str} {a : Nat} (h : Numeral 10 s a) (rest : Str) (n : Nat) : lex n (s ++ 'T' :: rest) = none := by
  obtain ⟨hne, hd⟩ := numeral_digits h
  have h' := number_T hd hne rest
  cases s with
  | nil => exact absurd rfl hne
  | cons c s =>
    have hc := hd c (by simp)
    cases n with
    | zero => rfl
    | succ n =>
      rw [List.cons_append, lex, if_neg (by rw [(digit_misc hc).1]; exact Bool.false_ne_true), if_neg (digit_misc hc).2, nextTok_digits hc]
      rw [List.cons_append] at h'
      rw [h']
      rfl

theorem lex_op {c : Char} (hc : c = '-' ∨ c = ':') (rest : Str) (n : Nat) (hn : rest.length + 1 ≤ n) :
    ∃ m, rest.length ≤ m ∧ lex n (c :: rest) = (lex m rest).map (.op c :: ·) := by
  have := lx_op (c := c) (by rcases hc with rfl | rfl <;> decide) (by rcases hc with rfl | rfl <;> decide) (by rcases hc with rfl | rfl <;> decide)
    (by rcases hc with rfl | rfl <;> decide) (by rcases hc with rfl | rfl <;> decide) (by rcases hc with rfl | rfl <;> decide)
    (by rcases hc with rfl | rfl <;> decide) rest trivial n (by simp; omega)
  simpa using this

theorem ends_dash (r : Str) : Ends ('-' :: r) := ends_cons (by decide) (by decide) (by decide) (by decide)
theorem ends_colon (r : Str) : Ends (':' :: r) := ends_cons (by decide) (by decide) (by decide) (by decide)

theorem lex_nil (m : Nat) : lex m [] = some [.stop] := by cases m <;> rfl

/-- **dates and times are no literals** -/
theorem date_fails {s : Str} (h : Date s) : Fails s := by
  have none_map : ∀ {α β : Type} (f : α → β), Option.map f (none : Option α) = none := fun _ => rfl
  cases h with
  | @doyT y d r a b h1 h2 =>
    apply fails_lex
    rcases lex_digits h1 (ends_dash (d ++ 'T' :: r)) (y ++ '-' :: (d ++ 'T' :: r)).length (by simp) with e | ⟨k, m, hm, e⟩
    · exact e
    · obtain ⟨m', _, e'⟩ := lex_op (Or.inl rfl) (d ++ 'T' :: r) m (by simpa using hm)
      rw [e, e', lex_digits_T h2]
      rfl
  | @dayT y m d r a b c h1 h2 h3 =>
    apply fails_lex
    rcases lex_digits h1 (ends_dash (m ++ '-' :: (d ++ 'T' :: r))) (y ++ '-' :: (m ++ '-' :: (d ++ 'T' :: r))).length (by simp) with e | ⟨k, n, hn, e⟩
    · exact e
    · obtain ⟨n', hn', e'⟩ := lex_op (Or.inl rfl) (m ++ '-' :: (d ++ 'T' :: r)) n (by simpa using hn)
      rcases lex_digits h2 (ends_dash (d ++ 'T' :: r)) n' (by simpa using hn') with e2 | ⟨k2, n2, hn2, e2⟩
      · rw [e, e', e2]; rfl
      · obtain ⟨n3, _, e3⟩ := lex_op (Or.inl rfl) (d ++ 'T' :: r) n2 (by simpa using hn2)
        rw [e, e', e2, e3, lex_digits_T h3]
        rfl
  | @doy y d a b h1 h2 =>
    rcases lex_digits h1 (ends_dash d) (y ++ '-' :: d).length (by simp) with e | ⟨k, n, hn, e⟩
    · exact fails_lex e
    · obtain ⟨n', hn', e'⟩ := lex_op (Or.inl rfl) d n (by simpa using hn)
      rcases lex_digits h2 ends_nil n' (by simpa using hn') with e2 | ⟨k2, n2, hn2, e2⟩
      · rw [List.append_nil] at e2
        apply fails_lex; rw [e, e', e2]; rfl
      · rw [List.append_nil, lex_nil] at e2
        rw [e', e2] at e
        exact fails_convert (e := .binop true (.lit (.int k)) (.lit (.int k2))) e rfl rfl
  | @day y m d a b c h1 h2 h3 =>
    rcases lex_digits h1 (ends_dash (m ++ '-' :: d)) (y ++ '-' :: (m ++ '-' :: d)).length (by simp) with e | ⟨k, n, hn, e⟩
    · exact fails_lex e
    · obtain ⟨n', hn', e'⟩ := lex_op (Or.inl rfl) (m ++ '-' :: d) n (by simpa using hn)
      rcases lex_digits h2 (ends_dash d) n' (by simpa using hn') with e2 | ⟨k2, n2, hn2, e2⟩
      · apply fails_lex; rw [e, e', e2]; rfl
      · obtain ⟨n3, hn3, e3⟩ := lex_op (Or.inl rfl) d n2 (by simpa using hn2)
        rcases lex_digits h3 ends_nil n3 (by simpa using hn3) with e4 | ⟨k4, n4, hn4, e4⟩
        · rw [List.append_nil] at e4
          apply fails_lex; rw [e, e', e2, e3, e4]; rfl
        · rw [List.append_nil, lex_nil] at e4
          rw [e', e2, e3, e4] at e
          exact fails_convert (e := .binop true (.binop true (.lit (.int k)) (.lit (.int k2))) (.lit (.int k4))) e rfl rfl
  | @time h r a h1 =>
    rcases lex_digits h1 (ends_colon r) (h ++ ':' :: r).length (by simp) with e | ⟨k, n, hn, e⟩
    · exact fails_lex e
    · obtain ⟨n', hn', e'⟩ := lex_op (Or.inr rfl) r n (by simpa using hn)
      rw [e'] at e
      cases hl : lex n' r with
      | none => apply fails_lex; rw [e, hl]; rfl
      | some ts =>
        rw [hl] at e
        refine fails_parse e ?_
        have := (ps_lit maxLevel (.int k)).2 (.op ':' :: ts) ⟨_, _, rfl, by simp⟩
        unfold parse
        rw [List.singleton_append] at this
        rw [this]
        simp

end Verif.Value
