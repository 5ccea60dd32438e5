/-
Lemmas about tokens of Python literals.
-/
import Verif.Spec.Value
import Verif.Lemmas.Literal

namespace Verif.Value
open Verif.Py Verif.Literal Verif.Literal.Spec Verif.PyLit Verif.Value.Spec

/-- what may follow a literal -/
def Ends (rest : Str) : Prop := ∀ c, rest.head? = some c → isIdCont c = false ∧ c ≠ '.' ∧ c ≠ '"' ∧ c ≠ '\''

theorem ends_nil : Ends [] := by intro c h; cases h

theorem ends_cons {c : Char} {r : Str} (h : isIdCont c = false) (h1 : c ≠ '.') (h2 : c ≠ '"') (h3 : c ≠ '\'') : Ends (c :: r) := by
  intro d hd
  injection hd with hd
  subst hd
  exact ⟨h, h1, h2, h3⟩

theorem idCont_of_digit {c : Char} (h : isDigit c = true) : isIdCont c = true := by
  unfold isIdCont; rw [h, Bool.or_true]

theorem idStart_ne {c d : Char} (h : isIdStart c = false) (hd : isIdStart d = true) : c ≠ d := by
  rintro rfl; rw [h] at hd; cases hd

theorem idCont_ne {c d : Char} (h : isIdCont c = false) (hd : isIdCont d = true) : c ≠ d := by
  rintro rfl; rw [h] at hd; cases hd

/-! ### digits -/

theorem digit_of {c : Char} {d : Nat} (h : DigitOf c d) (hd : d < 10) : isDigit c = true := by
  rcases h with ⟨_, h⟩ | ⟨h, _⟩
  · have e0 : ('0' : Char).toNat = 48 := rfl
    unfold isDigit
    rw [Bool.and_eq_true, decide_eq_true_eq, decide_eq_true_eq]
    omega
  · omega

theorem numeral_digits {s : Str} {n : Nat} (h : Numeral 10 s n) : s ≠ [] ∧ ∀ c ∈ s, isDigit c = true := by
  obtain ⟨ds, h1, h2, h3, h4⟩ := h
  refine ⟨?_, ?_⟩
  · rintro rfl
    cases h1
    exact h2 rfl
  · clear h2 h4
    induction h1 with
    | nil => intro c hc; cases hc
    | @cons c d cs ds hc _ ih =>
      intro x hx
      rcases List.mem_cons.1 hx with rfl | hx
      · exact digit_of hc (h3 d (List.mem_cons_self ..))
      · exact ih (fun d hd => h3 d (List.mem_cons_of_mem _ hd)) x hx

theorem natVal_foldl (b : Nat) (s : Str) (ds : List Nat) (h : List.Forall₂ DigitOf s ds) (a : Nat) :
    s.foldl (fun n c => n * b + (digitVal c).getD 0) a = a * b ^ ds.length + value b ds := by
  induction h generalizing a with
  | nil => simp [value]
  | @cons c d cs ds hc _ ih =>
    rw [List.foldl_cons, ih, digitVal_of hc, Option.getD_some, value, List.length_cons, pow_succ]
    ring

theorem natVal_numeral {b : Nat} {s : Str} {n : Nat} (h : Numeral b s n) : natVal b s = n := by
  obtain ⟨ds, h1, _, _, h4⟩ := h
  unfold natVal
  rw [natVal_foldl b s ds h1, Nat.zero_mul, Nat.zero_add, h4]

theorem digitRun_all (s rest : Str) (hs : ∀ c ∈ s, isDigit c = true) (hr : ∀ c, rest.head? = some c → isDigit c = false ∧ c ≠ '_')
    (prev : Bool) : digitRun isDigit prev (s ++ rest) = (s, rest) := by
  induction s generalizing prev with
  | nil =>
    rw [List.nil_append]
    cases rest with
    | nil => unfold digitRun; rfl
    | cons c r =>
      obtain ⟨h1, h2⟩ := hr c rfl
      unfold digitRun
      split
      · rename_i heq
        injection heq with h3 _
        exact absurd h3 h2
      · rename_i heq
        injection heq with h3 h4
        subst h3; subst h4
        rw [if_neg (by rw [h1]; exact Bool.false_ne_true)]
      · rename_i heq; cases heq
  | cons c s ih =>
    have hc := hs c (List.mem_cons_self ..)
    have hc_ : c ≠ '_' := by rintro rfl; exact absurd hc (by decide)
    rw [List.cons_append]
    unfold digitRun
    split
    · rename_i heq
      injection heq with h3 _
      exact absurd h3 hc_
    · rename_i heq
      injection heq with h3 h4
      subst h3; subst h4
      rw [if_pos hc, ih (fun x hx => hs x (List.mem_cons_of_mem _ hx))]
    · rename_i heq; cases heq

theorem finish_ends (l : Lit) (rest : Str) (h : ∀ c, rest.head? = some c → isIdCont c = false) : finish l rest = some (l, rest) := by
  unfold finish
  cases rest with
  | nil => rfl
  | cons c r => simp [h c rfl]

theorem ends_digit {rest : Str} (h : Ends rest) : ∀ c, rest.head? = some c → isDigit c = false ∧ c ≠ '_' := by
  intro c hc
  have h1 := (h c hc).1
  refine ⟨?_, idCont_ne h1 (by decide)⟩
  cases hd : isDigit c with
  | false => rfl
  | true => rw [idCont_of_digit hd] at h1; cases h1

theorem exponentPart_none {rest : Str} (h : ∀ c, rest.head? = some c → c ≠ 'e' ∧ c ≠ 'E') : exponentPart rest = some (none, rest) := by
  unfold exponentPart
  split
  all_goals first
    | rfl
    | (exfalso
       first
       | exact (h _ rfl).1 rfl
       | exact (h _ rfl).2 rfl)

theorem numberEnd_ends (l : Lit) {rest : Str} (h : Ends rest) : numberEnd l rest = some (l, rest) := by
  unfold numberEnd
  split
  · exact absurd rfl (idCont_ne (h _ rfl).1 (d := 'j') (by decide))
  · exact absurd rfl (idCont_ne (h _ rfl).1 (d := 'J') (by decide))
  · exact finish_ends l _ (fun c hc => (h c hc).1)

theorem ends_e {rest : Str} (h : Ends rest) : ∀ c, rest.head? = some c → c ≠ 'e' ∧ c ≠ 'E' :=
  fun c hc => ⟨idCont_ne (h c hc).1 (by decide), idCont_ne (h c hc).1 (by decide)⟩

theorem number_decimal (s rest : Str) (hs : ∀ c ∈ s, isDigit c = true) (hne : s ≠ [])
    (hr : ∀ c, rest.head? = some c → c ≠ 'x' ∧ c ≠ 'X' ∧ c ≠ 'o' ∧ c ≠ 'O' ∧ c ≠ 'b' ∧ c ≠ 'B') :
    number (s ++ rest) = decimalNumber (s ++ rest) := by
  have key : ∀ c, c ∈ s ∨ rest.head? = some c → ¬ (c = 'x' ∨ c = 'X') ∧ ¬ (c = 'o' ∨ c = 'O') ∧ ¬ (c = 'b' ∨ c = 'B') := by
    intro c hc
    rcases hc with hc | hc
    · have := hs c hc
      refine ⟨?_, ?_, ?_⟩ <;> rintro (rfl | rfl) <;> revert this <;> decide
    · obtain ⟨h1, h2, h3, h4, h5, h6⟩ := hr c hc
      exact ⟨fun h => h.elim h1 h2, fun h => h.elim h3 h4, fun h => h.elim h5 h6⟩
  unfold number
  split
  · rename_i c r heq
    have hc : c ∈ s ∨ rest.head? = some c := by
      cases s with
      | nil => exact absurd rfl hne
      | cons a s =>
        cases s with
        | nil =>
          simp only [List.singleton_append, List.cons.injEq] at heq
          rw [heq.2]; exact Or.inr rfl
        | cons b s =>
          simp only [List.cons_append, List.cons.injEq] at heq
          rw [← heq.2.1]; exact Or.inl (by simp)
    obtain ⟨h1, h2, h3⟩ := key c hc
    rw [if_neg h1, if_neg h2, if_neg h3]
  · rfl

/-- integers -/
theorem number_int {s : Str} {n : Nat} (h : Whole s n) {rest : Str} (hr : Ends rest) : number (s ++ rest) = some (.int n, rest) := by
  obtain ⟨h1, h2, h3⟩ := h
  obtain ⟨hne, hd⟩ := numeral_digits h1
  have hx : ∀ c, rest.head? = some c → c ≠ 'x' ∧ c ≠ 'X' ∧ c ≠ 'o' ∧ c ≠ 'O' ∧ c ≠ 'b' ∧ c ≠ 'B' := fun c hc => by
    have := (hr c hc).1
    exact ⟨idCont_ne this (by decide), idCont_ne this (by decide), idCont_ne this (by decide), idCont_ne this (by decide),
      idCont_ne this (by decide), idCont_ne this (by decide)⟩
  rw [number_decimal s rest hd hne hx]
  unfold decimalNumber
  rw [digitRun_all s rest hd (ends_digit hr)]
  simp only
  split
  · exact absurd rfl (hr '.' rfl).2.1
  · rw [exponentPart_none (ends_e hr)]
    simp only
    unfold intEnd
    split
    · exact absurd rfl (idCont_ne (hr _ rfl).1 (d := 'j') (by decide))
    · exact absurd rfl (idCont_ne (hr _ rfl).1 (d := 'J') (by decide))
    · rw [natVal_numeral h1, if_neg (by rintro ⟨a, b⟩; exact b (h2 a)), if_neg (by omega)]
      exact finish_ends _ _ (fun c hc => (hr c hc).1)

theorem expDigits_ok {s : Str} {n : Nat} (h : Numeral 10 s n) (g : Int) {rest : Str} (hr : Ends rest) :
    expDigits g (s ++ rest) = some (some (g * n), rest) := by
  obtain ⟨hne, hd⟩ := numeral_digits h
  unfold expDigits
  rw [digitRun_all s rest hd (ends_digit hr)]
  simp only
  rw [if_neg (by simp [hne]), natVal_numeral h]

theorem digit_first {s : Str} {n : Nat} (h : Numeral 10 s n) : ∃ c r, s = c :: r ∧ c ≠ '+' ∧ c ≠ '-' := by
  obtain ⟨hne, hd⟩ := numeral_digits h
  cases s with
  | nil => exact absurd rfl hne
  | cons c r =>
    have := hd c (List.mem_cons_self ..)
    refine ⟨c, r, rfl, ?_, ?_⟩ <;> rintro rfl <;> exact absurd this (by decide)

/-- exponents -/
theorem exponentPart_ok {ex : Str} {e : Int} (h : Exponent ex e) {rest : Str} (hr : Ends rest) :
    exponentPart (ex ++ rest) = some (some e, rest) := by
  cases h with
  | @plain m s n hm h =>
    obtain ⟨c, r, rfl, h1, h2⟩ := digit_first h
    have key := expDigits_ok h 1 hr
    rw [one_mul] at key
    rw [← key]
    rcases hm with rfl | rfl
    · unfold exponentPart
      split <;> simp_all
    · unfold exponentPart
      split <;> simp_all
  | @plus m s n hm h =>
    have key := expDigits_ok h 1 hr
    rw [one_mul] at key
    rw [← key]
    rcases hm with rfl | rfl <;> rfl
  | @minus m s n hm h =>
    have key := expDigits_ok h (-1) hr
    rw [neg_one_mul] at key
    rw [← key]
    rcases hm with rfl | rfl <;> rfl

theorem exponent_head {ex : Str} {e : Int} (h : Exponent ex e) : ∃ c r, ex = c :: r ∧ (c = 'e' ∨ c = 'E') := by
  cases h with
  | plain hm _ => exact ⟨_, _, rfl, hm⟩
  | plus hm _ => exact ⟨_, _, rfl, hm⟩
  | minus hm _ => exact ⟨_, _, rfl, hm⟩

theorem digits_isDigit {s : Str} (h : Digits s) : ∀ c ∈ s, isDigit c = true := by
  intro c hc
  have := h c hc
  have e0 : ('0' : Char).toNat = 48 := rfl
  have e9 : ('9' : Char).toNat = 57 := rfl
  unfold isDigit
  rw [Bool.and_eq_true, decide_eq_true_eq, decide_eq_true_eq]
  omega

/-- after the point -/
theorem decimal_point {ip fp tail : Str} {e : Option Int} {l : Lit} {rest : Str} (hi : Digits ip) (hf : Digits fp)
    (ht : ∀ c, tail.head? = some c → isDigit c = false ∧ c ≠ '_') (hex : exponentPart tail = some (e, rest))
    (hl : l = .real (decimalVal ip fp (e.getD 0))) (hr : Ends rest) :
    decimalNumber (ip ++ '.' :: (fp ++ tail)) = some (l, rest) := by
  unfold decimalNumber
  rw [digitRun_all ip _ (digits_isDigit hi) (by intro c hc; injection hc with hc; subst hc; exact ⟨by decide, by decide⟩)]
  simp only
  rw [digitRun_all fp tail (digits_isDigit hf) ht]
  simp only [hex]
  rw [← hl]
  exact numberEnd_ends l hr

/-- reals, if they begin with a digit or a point that is followed by a digit -/
theorem number_real {s : Str} {q : ℚ} (h : Decimal s q) {rest : Str} (hr : Ends rest) : number (s ++ rest) = some (.real q, rest) := by
  have hpoint : ∀ (ip tail : Str), Digits ip → number (ip ++ '.' :: tail) = decimalNumber (ip ++ '.' :: tail) := by
    intro ip tail hi
    by_cases hne : ip = []
    · subst hne; rfl
    · apply number_decimal ip _ (digits_isDigit hi) hne
      intro c hc
      injection hc with hc
      subst hc
      decide
  cases h with
  | @point ip fp n hi hf hn =>
    rw [List.append_assoc, List.cons_append, hpoint ip _ hi]
    refine decimal_point hi hf (ends_digit hr) (exponentPart_none (ends_e hr)) ?_ hr
    unfold decimalVal
    rw [natVal_numeral hn, Option.getD_none, zero_sub]
  | @pointExp ip fp ex n e hi hf hn hex =>
    have e1 : ip ++ '.' :: fp ++ ex ++ rest = ip ++ '.' :: (fp ++ (ex ++ rest)) := by simp
    rw [e1, hpoint ip _ hi]
    refine decimal_point hi hf ?_ (exponentPart_ok hex hr) ?_ hr
    · obtain ⟨c, r, rfl, hc⟩ := exponent_head hex
      intro x hx
      injection hx with hx
      subst hx
      rcases hc with rfl | rfl <;> decide
    · unfold decimalVal
      rw [natVal_numeral hn, Option.getD_some]
  | @wholeExp ip ex n e hn hex =>
    obtain ⟨hne, hd⟩ := numeral_digits hn
    obtain ⟨c, r, hex', hc⟩ := exponent_head hex
    rw [List.append_assoc, number_decimal ip _ hd hne (by
      intro x hx
      rw [hex'] at hx
      injection hx with hx
      subst hx
      rcases hc with rfl | rfl <;> decide)]
    unfold decimalNumber
    rw [digitRun_all ip _ hd (by
      intro x hx
      rw [hex'] at hx
      injection hx with hx
      subst hx
      rcases hc with rfl | rfl <;> decide)]
    simp only
    split
    · rename_i heq
      rw [hex'] at heq
      injection heq with h1 _
      rcases hc with rfl | rfl <;> exact absurd h1 (by decide)
    · rw [exponentPart_ok hex hr]
      simp only
      rw [numberEnd_ends _ hr]
      unfold decimalVal
      rw [List.append_nil, natVal_numeral hn]
      simp

/-! ### texts -/

theorem scanQuote_ok (q : Char) (t rest : Str) (hq : q ∉ t) (hb : '\\' ∉ t) (hn : '\n' ∉ t) (hr : '\r' ∉ t) :
    scanQuote q (t ++ q :: rest) = some (t, rest) := by
  induction t with
  | nil => rw [List.nil_append]; unfold scanQuote; rw [if_pos rfl]
  | cons c t ih =>
    simp only [List.mem_cons, not_or] at hq hb hn hr
    rw [List.cons_append]
    unfold scanQuote
    rw [if_neg (Ne.symm hq.1), if_neg (by rintro (h | h); exact hn.1 h.symm; exact hr.1 h.symm), if_neg (Ne.symm hb.1),
      ih hq.2 hb.2 hn.2 hr.2]
    rfl

theorem unescape_ok (t : Str) (h : '\\' ∉ t) (n : Nat) (hn : t.length ≤ n) : unescape n t = some t := by
  induction t generalizing n with
  | nil => cases n <;> rfl
  | cons c t ih =>
    simp only [List.mem_cons, not_or] at h
    cases n with
    | zero => simp at hn
    | succ n =>
      unfold unescape
      rw [if_pos (Ne.symm h.1), ih h.2 n (by simpa using hn)]
      rfl

theorem string_ok {q : Char} {t rest : Str} (hq : q ∉ t) (hb : '\\' ∉ t) (hn : '\n' ∉ t) (hr : '\r' ∉ t)
    (hrest : ∀ c, rest.head? = some c → c ≠ q) : string false (q :: (t ++ q :: rest)) = some (t, rest) := by
  have htake : ¬ ((t ++ q :: rest).take 2 = [q, q]) := by
    cases t with
    | nil =>
      cases rest with
      | nil => simp
      | cons c r =>
        have := hrest c rfl
        simp [this]
    | cons c t =>
      simp only [List.mem_cons, not_or] at hq
      simp [Ne.symm hq.1]
  unfold string
  simp only
  rw [if_neg htake, scanQuote_ok q t rest hq hb hn hr]
  simp only [Bool.false_eq_true, if_false]
  rw [unescape_ok t hb _ (Nat.le_refl _)]
  rfl

/-! ### tokens of a text -/

/-- `s`, followed by something of the kind `R`, has the tokens `ts` -/
def Lx (s : Str) (ts : List Tok) (R : Str → Prop) : Prop :=
  ∀ rest, R rest → ∀ n, s.length + rest.length ≤ n → ∃ m, rest.length ≤ m ∧ lex n (s ++ rest) = (lex m rest).map (ts ++ ·)

theorem Lx.append {s s' : Str} {ts ts' : List Tok} {R R' : Str → Prop} (h : Lx s ts R) (h' : Lx s' ts' R')
    (hR : ∀ rest, R' rest → R (s' ++ rest)) : Lx (s ++ s') (ts ++ ts') R' := by
  intro rest hrest n hn
  rw [List.length_append] at hn
  obtain ⟨m, hm, e⟩ := h (s' ++ rest) (hR rest hrest) n (by rw [List.length_append]; omega)
  rw [List.length_append] at hm
  obtain ⟨k, hk, e'⟩ := h' rest hrest m hm
  refine ⟨k, hk, ?_⟩
  rw [List.append_assoc, e, e', Option.map_map]
  congr 1
  funext x
  simp

theorem Lx.nil (R : Str → Prop) : Lx [] [] R := by
  intro rest _ n hn
  refine ⟨n, by simpa using hn, ?_⟩
  simp

theorem lx_blank {c : Char} (h : isBlank c = true) (R : Str → Prop) : Lx [c] [] R := by
  intro rest _ n hn
  cases n with
  | zero => simp at hn
  | succ n =>
    refine ⟨n, by simp at hn; omega, ?_⟩
    rw [List.singleton_append, lex, if_pos h]
    simp

theorem lx_blanks {s : Str} (h : Blanks s) (R : Str → Prop) : Lx s [] R := by
  induction s with
  | nil => exact Lx.nil R
  | cons c s ih =>
    have h1 : isBlank c = true := by
      rcases h c (List.mem_cons_self ..) with rfl | rfl <;> decide
    exact (lx_blank h1 (fun _ => True)).append (ih (fun x hx => h x (List.mem_cons_of_mem _ hx))) (fun _ _ => trivial)

/-- one token -/
theorem lx_tok {c : Char} {r : Str} {t : Tok} {R : Str → Prop} (hb : isBlank c = false) (hh : c ≠ '#')
    (h : ∀ rest, R rest → nextTok c (r ++ rest) = some (t, rest)) : Lx (c :: r) [t] R := by
  intro rest hrest n hn
  cases n with
  | zero => simp at hn
  | succ n =>
    refine ⟨n, by simp at hn; omega, ?_⟩
    rw [List.cons_append, lex, if_neg (by rw [hb]; exact Bool.false_ne_true), if_neg hh, h rest hrest]
    simp

/-- characters that are tokens -/
theorem lx_op {c : Char} (hb : isBlank c = false) (hh : c ≠ '#') (h1 : isDigit c = false) (h2 : c ≠ '.') (h3 : c ≠ '"') (h4 : c ≠ '\'')
    (h5 : isIdStart c = false) : Lx [c] [.op c] (fun _ => True) := by
  refine lx_tok hb hh ?_
  intro rest _
  unfold nextTok
  have hdot : (c == '.') = false := by simpa using h2
  rw [h1, hdot, Bool.false_and, Bool.false_or, if_neg Bool.false_ne_true, if_neg (by rintro (h | h); exact h3 h; exact h4 h), h5,
    if_neg Bool.false_ne_true, if_neg (by rintro ⟨h, _⟩; exact h2 h), List.nil_append]

theorem lx_num {s : Str} {l : Lit} (hs : ∃ c r, s = c :: r ∧ (isDigit c = true ∨ c = '.' ∧ ∃ d t, r = d :: t ∧ isDigit d = true))
    (h : ∀ rest, Ends rest → number (s ++ rest) = some (l, rest)) : Lx s [.num l] Ends := by
  obtain ⟨c, r, rfl, hc⟩ := hs
  have hcond : ∀ rest : Str, (isDigit c || (c == '.' && (r ++ rest).head?.any isDigit)) = true := by
    intro rest
    rcases hc with hc | ⟨rfl, d, t, rfl, hd⟩
    · rw [hc, Bool.true_or]
    · simp [hd]
  have hb : isBlank c = false ∧ c ≠ '#' := by
    rcases hc with hc | ⟨rfl, _⟩
    · constructor
      · unfold isDigit at hc
        simp only [Bool.and_eq_true, decide_eq_true_eq] at hc
        unfold isBlank
        simp only [Bool.or_eq_false_iff, beq_eq_false_iff_ne]
        refine ⟨⟨?_, ?_⟩, ?_⟩ <;> rintro rfl <;> revert hc <;> decide
      · rintro rfl; exact absurd hc (by decide)
    · decide
  refine lx_tok hb.1 hb.2 ?_
  intro rest hrest
  unfold nextTok
  rw [if_pos (hcond rest), ← List.cons_append, h rest hrest]
  rfl

theorem decimal_head {s : Str} {q : ℚ} (h : Decimal s q) :
    ∃ c r, s = c :: r ∧ (isDigit c = true ∨ c = '.' ∧ ∃ d t, r = d :: t ∧ isDigit d = true) := by
  have key : ∀ (ip fp tail : Str) (n : Nat), Numeral 10 (ip ++ fp) n →
      ∃ c r, ip ++ '.' :: (fp ++ tail) = c :: r ∧ (isDigit c = true ∨ c = '.' ∧ ∃ d t, r = d :: t ∧ isDigit d = true) := by
    intro ip fp tail n hn
    obtain ⟨hne, hd⟩ := numeral_digits hn
    cases ip with
    | cons c ip => exact ⟨c, _, rfl, Or.inl (hd c (by simp))⟩
    | nil =>
      cases fp with
      | nil => exact absurd rfl hne
      | cons d fp => exact ⟨'.', _, rfl, Or.inr ⟨rfl, d, _, rfl, hd d (by simp)⟩⟩
  cases h with
  | @point ip fp n _ _ hn =>
    have := key ip fp [] n hn
    rwa [List.append_nil] at this
  | @pointExp ip fp ex n e _ _ hn _ =>
    have := key ip fp ex n hn
    rw [show ip ++ '.' :: (fp ++ ex) = ip ++ '.' :: fp ++ ex by simp] at this
    exact this
  | @wholeExp ip ex n e hn _ =>
    obtain ⟨hne, hd⟩ := numeral_digits hn
    cases ip with
    | nil => exact absurd rfl hne
    | cons c ip => exact ⟨c, _, rfl, Or.inl (hd c (by simp))⟩

theorem lx_whole {s : Str} {n : Nat} (h : Whole s n) : Lx s [.num (.int n)] Ends := by
  refine lx_num ?_ (fun rest hr => number_int h hr)
  obtain ⟨hne, hd⟩ := numeral_digits h.1
  cases s with
  | nil => exact absurd rfl hne
  | cons c r => exact ⟨c, r, rfl, Or.inl (hd c (by simp))⟩

theorem lx_decimal {s : Str} {q : ℚ} (h : Decimal s q) : Lx s [.num (.real q)] Ends :=
  lx_num (decimal_head h) (fun rest hr => number_real h hr)

theorem lx_quoted {q : Char} {t : Str} (hq' : q = '"' ∨ q = '\'') (hq : q ∉ t) (hb : '\\' ∉ t) (hn : '\n' ∉ t) (hr : '\r' ∉ t) :
    Lx (q :: (t ++ [q])) [.text t] Ends := by
  refine lx_tok ?_ ?_ ?_
  · rcases hq' with rfl | rfl <;> decide
  · rcases hq' with rfl | rfl <;> decide
  intro rest hrest
  have h0 : (isDigit q || (q == '.' && (t ++ [q] ++ rest).head?.any isDigit)) = false := by
    rcases hq' with rfl | rfl <;> simp [isDigit]
  unfold nextTok
  rw [if_neg (by rw [h0]; exact Bool.false_ne_true), if_pos hq']
  have := string_ok (rest := rest) hq hb hn hr (by
    intro c hc
    rcases hq' with rfl | rfl
    · exact (hrest c hc).2.2.1
    · exact (hrest c hc).2.2.2)
  rw [List.append_assoc, List.singleton_append, this]
  rfl

/-! ### expressions -/

/-- what may follow a literal: a comma, a closing bracket, or the end; also some characters that make it an error -/
def Follows (ts : List Tok) : Prop :=
  ∃ t r, ts = t :: r ∧ (t = .op ',' ∨ t = .op ')' ∨ t = .op '}' ∨ t = .stop ∨ t = .op '<' ∨ t = .op ':')

/-- the tokens `ts` are the expression `e` -/
def Ps (p : Parser) (ts : List Tok) (e : Expr) : Prop :=
  (∃ t r, ts = t :: r ∧ t ≠ .op ')' ∧ t ≠ .op '}' ∧ t ≠ .stop) ∧ ∀ rest, Follows rest → p (ts ++ rest) = some (e, rest)

theorem sumRest_follows {f : Parser} {n : Nat} {e : Expr} {ts : List Tok} (h : Follows ts) : sumRest f (n + 1) e ts = some (e, ts) := by
  obtain ⟨t, r, rfl, ht⟩ := h
  unfold sumRest
  rw [if_neg, if_neg]
  · simp only [List.head?_cons, Option.some.injEq]
    rcases ht with rfl | rfl | rfl | rfl | rfl | rfl <;> decide
  · simp only [List.head?_cons, Option.some.injEq]
    rcases ht with rfl | rfl | rfl | rfl | rfl | rfl <;> decide

theorem sum_follows {f : Parser} {ts ts' : List Tok} {e : Expr} (h : f ts = some (e, ts')) (h' : Follows ts') : sum f ts = some (e, ts') := by
  unfold sum
  rw [h]
  exact sumRest_follows h'

/-- an expression that is an atom -/
theorem expr_atom (d : Nat) {t : Tok} {ts ts' : List Tok} {e : Expr} (ht : t ≠ .op '+' ∧ t ≠ .op '-')
    (h : ∀ p, (d = 0 ∨ ∃ k, d = k + 1 ∧ p = expr k) → atom p (t :: ts) = some (e, ts')) (h' : Follows ts') :
    expr d (t :: ts) = some (e, ts') := by
  have key : ∀ p, atom p (t :: ts) = some (e, ts') → sum (factor (atom p)) (t :: ts) = some (e, ts') := by
    intro p hp
    refine sum_follows ?_ h'
    unfold factor
    split
    · rename_i heq; injection heq with h1 _; exact absurd h1 ht.1
    · rename_i heq; injection heq with h1 _; exact absurd h1 ht.2
    · exact hp
  cases d with
  | zero => exact key _ (h _ (Or.inl rfl))
  | succ k => exact key _ (h _ (Or.inr ⟨k, rfl, rfl⟩))

theorem ps_lit (d : Nat) (l : Lit) : Ps (expr d) [.num l] (.lit l) := by
  refine ⟨⟨_, _, rfl, by simp, by simp, by simp⟩, ?_⟩
  intro rest hrest
  exact expr_atom d (by simp) (fun p _ => rfl) hrest

theorem ps_sign (d : Nat) (c : Char) (hc : c = '+' ∨ c = '-') (l : Lit) : Ps (expr d) [.op c, .num l] (.sign (c == '-') (.lit l)) := by
  refine ⟨⟨_, _, rfl, ?_, ?_, by simp⟩, ?_⟩
  · rcases hc with rfl | rfl <;> decide
  · rcases hc with rfl | rfl <;> decide
  intro rest hrest
  have key : ∀ p, sum (factor (atom p)) ([.op c, .num l] ++ rest) = some (.sign (c == '-') (.lit l), rest) := by
    intro p
    refine sum_follows ?_ hrest
    rcases hc with rfl | rfl <;> rfl
  cases d with
  | zero => exact key _
  | succ k => exact key _

theorem strings_follows {s : Str} {ts : List Tok} (h : Follows ts) : strings s ts = (s, ts) := by
  obtain ⟨t, r, rfl, ht⟩ := h
  rcases ht with rfl | rfl | rfl | rfl | rfl | rfl <;> rfl

theorem ps_text (d : Nat) (s : Str) : Ps (expr d) [.text s] (.text s) := by
  refine ⟨⟨_, _, rfl, by simp, by simp, by simp⟩, ?_⟩
  intro rest hrest
  refine expr_atom d (by simp) (fun p _ => ?_) hrest
  show some (Expr.text (strings s rest).1, (strings s rest).2) = _
  rw [strings_follows hrest]

theorem signed_lit_int (c : Char) (hc : c = '+' ∨ c = '-') (n : Int) :
    convert (.sign (c == '-') (.lit (.int n))) = .ok (.int (if c = '-' then -n else n)) := by
  rcases hc with rfl | rfl <;> rfl

theorem signed_lit_real (c : Char) (hc : c = '+' ∨ c = '-') (q : ℚ) :
    convert (.sign (c == '-') (.lit (.real q))) = .ok (.real (if c = '-' then -q else q)) := by
  rcases hc with rfl | rfl <;> rfl

/-- a literal: its tokens, its expression, its value -/
def Means (d : Nat) (s : Str) (v : Val) : Prop :=
  ∃ ts e, Lx s ts Ends ∧ Ps (expr d) ts e ∧ convert e = .ok v

theorem lx_sign {c : Char} (hc : c = '+' ∨ c = '-') : Lx [c] [.op c] (fun _ => True) := by
  rcases hc with rfl | rfl <;> exact lx_op (by decide) (by decide) (by decide) (by decide) (by decide) (by decide) (by decide)

theorem number_means (d : Nat) {s : Str} {v : Val} (h : Number s v) : Means d s v := by
  cases h with
  | int h => exact ⟨_, _, lx_whole h, ps_lit d _, rfl⟩
  | plusInt h =>
    exact ⟨_, _, (lx_sign (Or.inl rfl)).append (lx_whole h) (fun _ _ => trivial), ps_sign d _ (Or.inl rfl) _, rfl⟩
  | minusInt h =>
    exact ⟨_, _, (lx_sign (Or.inr rfl)).append (lx_whole h) (fun _ _ => trivial), ps_sign d _ (Or.inr rfl) _, rfl⟩
  | real h => exact ⟨_, _, lx_decimal h, ps_lit d _, rfl⟩
  | plusReal h =>
    exact ⟨_, _, (lx_sign (Or.inl rfl)).append (lx_decimal h) (fun _ _ => trivial), ps_sign d _ (Or.inl rfl) _, rfl⟩
  | minusReal h =>
    exact ⟨_, _, (lx_sign (Or.inr rfl)).append (lx_decimal h) (fun _ _ => trivial), ps_sign d _ (Or.inr rfl) _, rfl⟩

theorem scalar_means (d : Nat) {s : Str} {v : Val} (h : Scalar s v) : Means d s v := by
  rcases h with h | h
  · exact number_means d h
  · cases h with
    | mk hq h1 h2 h3 h4 => exact ⟨_, _, lx_quoted hq h1 h2 h3 h4, ps_text d _, rfl⟩

/-! ### sequences and sets -/

/-- tokens of parts, separated by commas -/
def commas : List (List Tok) → List Tok
  | [] => []
  | [t] => t
  | t :: ts => t ++ .op ',' :: commas ts

theorem follows_comma (r : List Tok) : Follows (.op ',' :: r) := ⟨_, _, rfl, Or.inl rfl⟩

theorem commas_length (tss : List (List Tok)) : tss.length ≤ (commas tss).length + 1 := by
  induction tss with
  | nil => simp
  | cons t ts ih =>
    cases ts with
    | nil => simp [commas]
    | cons t' ts =>
      simp only [commas, List.length_cons, List.length_append] at ih ⊢
      omega

/-- several parts up to a closing bracket -/
theorem items_ok {p : Parser} {close : Tok} (hc : close = .op ')' ∨ close = .op '}' ∨ close = .stop) {tss : List (List Tok)} {es : List Expr}
    (h : List.Forall₂ (Ps p) tss es) (hne : tss ≠ []) (rest : List Tok) (n : Nat) (hn : tss.length ≤ n) :
    items p close n (commas tss ++ close :: rest) = some (es, rest) := by
  have hcomma : close ≠ .op ',' := by rcases hc with rfl | rfl | rfl <;> decide
  have hfol : Follows (close :: rest) := ⟨_, _, rfl, by rcases hc with rfl | rfl | rfl <;> simp⟩
  have hhead : ∀ (ts x : List Tok) (e : Expr), Ps p ts e → ¬ ((ts ++ x).head? = some close) := by
    rintro ts x e ⟨⟨t, r, rfl, h1, h2, h3⟩, _⟩ h
    injection h with h
    rcases hc with rfl | rfl | rfl
    · exact h1 h
    · exact h2 h
    · exact h3 h
  induction h generalizing n with
  | nil => exact absurd rfl hne
  | @cons ts e tss es h1 h2 ih =>
    cases n with
    | zero => simp at hn
    | succ n =>
      cases h2 with
      | nil =>
        show items p close (n + 1) (ts ++ close :: rest) = _
        unfold items
        rw [if_neg (hhead _ _ _ h1), h1.2 _ hfol]
        simp
      | @cons ts' e' tss es h2 h3 =>
        have := ih (by simp) n (by simpa using hn)
        show items p close (n + 1) (ts ++ .op ',' :: commas (ts' :: tss) ++ close :: rest) = _
        rw [List.append_assoc, List.cons_append]
        unfold items
        rw [if_neg (hhead _ _ _ h1), h1.2 _ (follows_comma _)]
        simp only [List.head?_cons, Option.some.injEq, List.tail_cons]
        rw [if_neg (Ne.symm hcomma), if_pos trivial, this]
        rfl

theorem parens_ok {p : Parser} {tss : List (List Tok)} {es : List Expr} (h : List.Forall₂ (Ps p) tss es) (hne : 2 ≤ tss.length)
    (rest : List Tok) : parens p (commas tss ++ .op ')' :: rest) = some (.tuple es, rest) := by
  cases h with
  | nil => simp at hne
  | @cons ts e tss es h1 h2 =>
    cases h2 with
    | nil => simp at hne
    | @cons ts' e' tss es h2 h3 =>
      show parens p (ts ++ .op ',' :: commas (ts' :: tss) ++ .op ')' :: rest) = _
      rw [List.append_assoc, List.cons_append]
      unfold parens
      rw [if_neg, h1.2 _ (follows_comma _)]
      · simp only [List.head?_cons, Option.some.injEq, List.tail_cons]
        rw [if_neg (by decide), if_pos trivial, items_ok (Or.inl rfl) (List.Forall₂.cons h2 h3) (by simp) rest _ (by
          have := commas_length (ts' :: tss)
          simp only [List.length_cons, List.length_append] at this ⊢
          omega)]
        rfl
      · obtain ⟨⟨t, r, rfl, h5, _⟩, _⟩ := h1
        intro h
        injection h with h
        exact h5 h

theorem braces_ok {p : Parser} {tss : List (List Tok)} {es : List Expr} (h : List.Forall₂ (Ps p) tss es) (hne : 1 ≤ tss.length)
    (rest : List Tok) : braces p (commas tss ++ .op '}' :: rest) = some (.set es, rest) := by
  cases h with
  | nil => simp at hne
  | @cons ts e tss es h1 h2 =>
    have hh : ∀ x, ¬ ((ts ++ x).head? = some (.op '}')) := by
      obtain ⟨⟨t, r, rfl, _, h5, _⟩, _⟩ := h1
      intro x h
      injection h with h
      exact h5 h
    cases h2 with
    | nil =>
      show braces p (ts ++ .op '}' :: rest) = _
      unfold braces
      rw [if_neg (hh _), h1.2 _ ⟨_, _, rfl, by simp⟩]
      simp
    | @cons ts' e' tss es h2 h3 =>
      show braces p (ts ++ .op ',' :: commas (ts' :: tss) ++ .op '}' :: rest) = _
      rw [List.append_assoc, List.cons_append]
      unfold braces
      rw [if_neg (hh _), h1.2 _ (follows_comma _)]
      simp only [List.head?_cons, Option.some.injEq, List.tail_cons]
      rw [if_neg (by decide), if_pos trivial, items_ok (Or.inr (Or.inl rfl)) (List.Forall₂.cons h2 h3) (by simp) rest _ (by
          have := commas_length (ts' :: tss)
          simp only [List.length_cons, List.length_append] at this ⊢
          omega)]
      rfl

theorem ps_parens (d : Nat) {tss : List (List Tok)} {es : List Expr} (h : List.Forall₂ (Ps (expr d)) tss es) (hne : 2 ≤ tss.length) :
    Ps (expr (d + 1)) (.op '(' :: (commas tss ++ [.op ')'])) (.tuple es) := by
  refine ⟨⟨_, _, rfl, by decide, by decide, by decide⟩, ?_⟩
  intro rest hrest
  rw [List.cons_append, List.append_assoc, List.singleton_append]
  refine expr_atom (d + 1) (by decide) (fun p hp => ?_) hrest
  rcases hp with hp | ⟨k, hk, rfl⟩
  · omega
  · obtain rfl : d = k := by omega
    exact parens_ok h hne rest

theorem ps_braces (d : Nat) {tss : List (List Tok)} {es : List Expr} (h : List.Forall₂ (Ps (expr d)) tss es) (hne : 1 ≤ tss.length) :
    Ps (expr (d + 1)) (.op '{' :: (commas tss ++ [.op '}'])) (.set es) := by
  refine ⟨⟨_, _, rfl, by decide, by decide, by decide⟩, ?_⟩
  intro rest hrest
  rw [List.cons_append, List.append_assoc, List.singleton_append]
  refine expr_atom (d + 1) (by decide) (fun p hp => ?_) hrest
  rcases hp with hp | ⟨k, hk, rfl⟩
  · omega
  · obtain rfl : d = k := by omega
    exact braces_ok h hne rest

/-- what follows a part -/
def Cut (rest : Str) : Prop := ∃ c r, rest = c :: r ∧ (c = ',' ∨ c = ')' ∨ c = '}')

theorem cut_ends {rest : Str} (h : Cut rest) : Ends rest := by
  obtain ⟨c, r, rfl, h⟩ := h
  rcases h with rfl | rfl | rfl <;> exact ends_cons (by decide) (by decide) (by decide) (by decide)

theorem blanks_ends {b rest : Str} (hb : Blanks b) (h : Ends rest) : Ends (b ++ rest) := by
  cases b with
  | nil => exact h
  | cons c b =>
    rcases hb c (by simp) with rfl | rfl <;> exact ends_cons (by decide) (by decide) (by decide) (by decide)

/-- a part with blanks around it -/
theorem padded_means {d : Nat} {P : Str → Val → Prop} (hP : ∀ s v, P s v → Means d s v) {s : Str} {v : Val} (h : Padded P s v) :
    Means d s v := by
  obtain ⟨a, s, b, rfl, ha, hb, h⟩ := h
  obtain ⟨ts, e, h1, h2, h3⟩ := hP s v h
  refine ⟨ts, e, ?_, h2, h3⟩
  have := (lx_blanks ha (fun _ => True)).append (h1.append (lx_blanks hb Ends) (fun rest hr => blanks_ends hb hr)) (fun _ _ => trivial)
  simpa using this

theorem parts_means {d : Nat} {P : Str → Val → Prop} (hP : ∀ s v, P s v → Means d s v) {parts : List Str} {vals : List Val}
    (h : List.Forall₂ (Padded P) parts vals) (hne : parts ≠ []) :
    ∃ tss es, Lx (join [','] parts) (commas tss) Ends ∧ tss.length = parts.length ∧ List.Forall₂ (Ps (expr d)) tss es ∧
      convertAll false es = .ok vals ∧ (hashableAll vals = true → convertAll true es = .ok vals) := by
  induction h with
  | nil => exact absurd rfl hne
  | @cons p v ps vs h1 h2 ih =>
    obtain ⟨ts, e, g1, g2, g3⟩ := padded_means hP h1
    cases ps with
    | nil =>
      cases h2
      refine ⟨[ts], [e], g1, rfl, .cons g2 .nil, ?_, ?_⟩
      · simp [convertAll, g3]
      · intro hh
        have hv : hashable v = true := by simpa [hashableAll] using hh
        simp [convertAll, g3, hv]
    | cons p' ps =>
      obtain ⟨tss, es, k1, k2, k3, k4, k5⟩ := ih (by simp)
      refine ⟨ts :: tss, e :: es, ?_, by simp [k2], .cons g2 k3, ?_, ?_⟩
      · have hc : Lx [','] [.op ','] (fun _ => True) :=
          lx_op (by decide) (by decide) (by decide) (by decide) (by decide) (by decide) (by decide)
        have := g1.append (hc.append k1 (fun _ _ => trivial)) (fun rest _ => cut_ends ⟨',', _, rfl, Or.inl rfl⟩)
        have e1 : commas (ts :: tss) = ts ++ .op ',' :: commas tss := by
          cases tss with
          | nil => simp at k2
          | cons _ _ => rfl
        rw [e1]
        simpa [join] using this
      · simp [convertAll, g3, k4]
      · intro hh
        have hv : hashable v = true ∧ hashableAll vs = true := by simpa [hashableAll] using hh
        simp [convertAll, g3, hv.1, k5 hv.2]

mutual
/-- `v` has no list and nothing else that Python cannot hash, apart from sets -/
def Plain : Val → Prop
  | .list _ => False
  | .other _ => False
  | .quantity _ _ => False
  | .tuple vs => AllPlain vs
  | _ => True
/-- … -/
def AllPlain : List Val → Prop
  | [] => True
  | v :: vs => Plain v ∧ AllPlain vs
end

mutual
theorem hashable_of : ∀ (v : Val), SetFree v → Plain v → hashable v = true
  | .tuple vs, h, h' => by simp only [hashable]; simp only [SetFree] at h; simp only [Plain] at h'; exact hashableAll_of vs h h'
  | .set _, h, _ => by simp [SetFree] at h
  | .list _, _, h => by simp [Plain] at h
  | .other _, _, h => by simp [Plain] at h
  | .int _, _, _ => rfl
  | .str _, _, _ => rfl
  | .real _, _, _ => rfl
  | .none, _, _ => rfl
  | .bool _, _, _ => rfl
  | .quantity _ _, _, h => by simp [Plain] at h
theorem hashableAll_of : ∀ (vs : List Val), AllSetFree vs → AllPlain vs → hashableAll vs = true
  | [], _, _ => rfl
  | v :: vs, h, h' => by
    simp only [AllSetFree] at h; simp only [AllPlain] at h'
    simp [hashableAll, hashable_of v h.1 h'.1, hashableAll_of vs h.2 h'.2]
end

mutual
theorem setFree_of : ∀ (v : Val), hashable v = true → Plain v → SetFree v
  | .tuple vs, h, h' => by simp only [hashable] at h; simp only [SetFree]; simp only [Plain] at h'; exact allSetFree_of vs h h'
  | .set _, h, _ => by simp [hashable] at h
  | .list _, _, h => by simp [Plain] at h
  | .other _, _, h => by simp [Plain] at h
  | .int _, _, _ => trivial
  | .str _, _, _ => trivial
  | .real _, _, _ => trivial
  | .none, _, _ => trivial
  | .bool _, _, _ => trivial
  | .quantity _ _, _, h => by simp [Plain] at h
theorem allSetFree_of : ∀ (vs : List Val), hashableAll vs = true → AllPlain vs → AllSetFree vs
  | [], _, _ => trivial
  | v :: vs, h, h' => by
    simp only [hashableAll, Bool.and_eq_true] at h; simp only [AllPlain] at h'
    exact ⟨setFree_of v h.1 h'.1, allSetFree_of vs h.2 h'.2⟩
end

theorem scalar_plain {s : Str} {v : Val} (h : Scalar s v) : Plain v := by
  rcases h with h | h
  · cases h <;> trivial
  · cases h; trivial

theorem parts_plain {P : Str → Val → Prop} (hP : ∀ s v, P s v → Plain v) {parts : List Str} {vals : List Val}
    (h : List.Forall₂ (Padded P) parts vals) : AllPlain vals := by
  induction h with
  | nil => trivial
  | cons h1 _ ih =>
    obtain ⟨_, s, _, _, _, _, h⟩ := h1
    exact ⟨hP _ _ h, ih⟩

theorem literal_plain {d : Nat} {s : Str} {v : Val} (h : Spec.Literal d s v) : Plain v := by
  induction d generalizing s v with
  | zero => exact scalar_plain h
  | succ d ih =>
    cases h with
    | scalar h => exact scalar_plain h
    | seq _ h => simp only [Plain]; exact parts_plain (fun s v h => ih h) h
    | set _ _ _ => trivial

/-- **every literal means what it says** -/
theorem literal_means {d : Nat} {s : Str} {v : Val} (h : Spec.Literal d s v) : Means d s v := by
  induction d generalizing s v with
  | zero => exact scalar_means 0 h
  | succ d ih =>
    have hop : ∀ c : Char, c = '(' ∨ c = ')' ∨ c = '{' ∨ c = '}' → Lx [c] [.op c] (fun _ => True) := by
      rintro c (rfl | rfl | rfl | rfl) <;>
        exact lx_op (by decide) (by decide) (by decide) (by decide) (by decide) (by decide) (by decide)
    cases h with
    | scalar h => exact scalar_means _ h
    | @seq parts vals h1 h2 =>
      obtain ⟨tss, es, k1, k2, k3, k4, _⟩ := parts_means (d := d) (fun s v h => ih h) h2 (by rintro rfl; simp at h1)
      refine ⟨_, _, ?_, ps_parens d k3 (by omega), by simp [convert, k4, Except.map]⟩
      have := (hop '(' (by simp)).append (k1.append (hop ')' (by simp)) (fun rest _ => cut_ends ⟨')', _, rfl, by simp⟩)) (fun _ _ => trivial)
      exact fun rest _ => this rest trivial
    | @set parts vals h1 h2 h3 =>
      obtain ⟨tss, es, k1, k2, k3, _, k4⟩ := parts_means (d := d) (fun s v h => ih h) h2 (by rintro rfl; simp at h1)
      have hh := hashableAll_of vals h3 (parts_plain (fun s v h => literal_plain h) h2)
      refine ⟨_, _, ?_, ps_braces d k3 (by omega), by simp [convert, k4 hh, Except.map]⟩
      have := (hop '{' (by simp)).append (k1.append (hop '}' (by simp)) (fun rest _ => cut_ends ⟨'}', _, rfl, by simp⟩)) (fun _ _ => trivial)
      exact fun rest _ => this rest trivial

theorem litEval_of_means {s : Str} {v : Val} (h : Means maxLevel s v) : litEval s = .ok v := by
  obtain ⟨ts, e, h1, h2, h3⟩ := h
  obtain ⟨m, _, hm⟩ := h1 [] ends_nil s.length (by simp)
  rw [List.append_nil] at hm
  have hl : lex m [] = some [.stop] := by cases m <;> rfl
  rw [hl] at hm
  unfold litEval
  rw [hm]
  simp only [Option.map_some]
  unfold parse
  rw [h2.2 [.stop] ⟨_, _, rfl, by simp⟩]
  simp [h3]

end Verif.Value
