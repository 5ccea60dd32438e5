/-
Lemmas about sequences of words and of quantities.
-/
import Verif.Lemmas.ValueFail
import Verif.Props.Literal

namespace Verif.Value
open Verif.Py Verif.Literal Verif.Literal.Spec Verif.PyLit Verif.Value.Spec

/-- the text is the expression `e` -/
def Reads (d : Nat) (s : Str) (e : Expr) : Prop := ∃ ts, Lx s ts Ends ∧ Ps (expr d) ts e

theorem blanks_of_spaces {s : Str} (h : Spaces s) : Blanks s := fun c hc => Or.inl (h c hc)

theorem reads_blanks {d : Nat} {a s b : Str} {e : Expr} (ha : Blanks a) (hb : Blanks b) (h : Reads d s e) : Reads d (a ++ (s ++ b)) e := by
  obtain ⟨ts, h1, h2⟩ := h
  refine ⟨ts, ?_, h2⟩
  have := (lx_blanks ha (fun _ => True)).append (h1.append (lx_blanks hb Ends) (fun rest hr => blanks_ends hb hr)) (fun _ _ => trivial)
  simpa using this

theorem reads_scalar (d : Nat) {s : Str} {v : Val} (h : Scalar s v) : ∃ e, Reads d s e ∧ convert e = .ok v ∧ hashable v = true := by
  obtain ⟨ts, e, h1, h2, h3⟩ := scalar_means d h
  refine ⟨e, ⟨ts, h1, h2⟩, h3, ?_⟩
  rcases h with h | h
  · cases h <;> rfl
  · cases h; rfl

/-- signs between the words of a term -/
def Sep (c : Char) : Prop := c = '/' ∨ c = '-' ∨ c = '+' ∨ c = '*'

/-- the characters of what follows the first word of a term -/
def tailStr (l : List (Char × Str)) : Str := l.flatMap (fun x => x.1 :: x.2)

/-- … and the tokens -/
def tailToks (l : List (Char × Str)) : List Tok := l.flatMap (fun x => [.op x.1, .name x.2])

/-- … and the expression -/
def chain (l : List (Char × Str)) (e : Expr) : Expr := l.foldl (fun e x => .binop (x.1 == '+' || x.1 == '-') e .name) e

theorem chain_left {l : List (Char × Str)} {e : Expr} (h : Left e) : Left (chain l e) := by
  induction l generalizing e with
  | nil => exact h
  | cons x l ih => exact ih (.binop h)

theorem not_emptySet {l : List (Char × Str)} {w : Str} {rest : List Tok} (hrest : Follows rest) : emptySet w (tailToks l ++ rest) = false := by
  unfold emptySet
  have : decide ((tailToks l ++ rest).take 2 = [.op '(', .op ')']) = false := by
    rw [decide_eq_false_iff_not]
    intro hh
    cases l with
    | nil =>
      obtain ⟨t, r, rfl, ht⟩ := hrest
      simp only [tailToks, List.flatMap_nil, List.nil_append, List.take_succ_cons, List.cons.injEq] at hh
      rcases ht with rfl | rfl | rfl | rfl | rfl | rfl <;> exact absurd hh.1 (by decide)
    | cons y l =>
      simp only [tailToks, List.flatMap_cons, List.cons_append, List.take_succ_cons, List.cons.injEq] at hh
      exact absurd hh.2.1 (by simp)
  rw [this, Bool.and_false]

theorem factor_word (p : Parser) {l : List (Char × Str)} {w : Str} {rest : List Tok} (hw : Word w) (hrest : Follows rest) :
    factor (atom p) (.name w :: (tailToks l ++ rest)) = some (.name, tailToks l ++ rest) := by
  show (if emptySet w (tailToks l ++ rest) then some (Expr.set [], (tailToks l ++ rest).drop 2) else some (nameExpr w, tailToks l ++ rest)) = _
  rw [not_emptySet hrest, nameExpr_word hw]
  rfl

theorem sumRest_step {f : Parser} {c : Char} (hc : Sep c) {n : Nat} {e g : Expr} {ts ts' : List Tok} (h : f ts = some (g, ts')) :
    sumRest f (n + 1) e (.op c :: ts) = sumRest f n (.binop (c == '+' || c == '-') e g) ts' := by
  rw [sumRest]
  simp only [List.head?_cons, List.tail_cons, Option.some.injEq, Tok.op.injEq, h]
  rcases hc with rfl | rfl | rfl | rfl <;> simp <;> rfl

theorem sumRest_chain (p : Parser) {l : List (Char × Str)} (h : ∀ x ∈ l, Sep x.1 ∧ Word x.2) {rest : List Tok} (hrest : Follows rest)
    (n : Nat) (hn : (tailToks l ++ rest).length ≤ n) (e : Expr) :
    sumRest (factor (atom p)) n e (tailToks l ++ rest) = some (chain l e, rest) := by
  induction l generalizing n e with
  | nil =>
    cases n with
    | zero =>
      obtain ⟨t, r, rfl, _⟩ := hrest
      simp at hn
    | succ n => exact sumRest_follows hrest
  | cons x l ih =>
    obtain ⟨c, w⟩ := x
    obtain ⟨hc, hw⟩ := h (c, w) (by simp)
    have hf := factor_word p (l := l) hw hrest
    cases n with
    | zero => simp [tailToks] at hn
    | succ n =>
      have hlen : (tailToks l ++ rest).length ≤ n := by simp [tailToks] at hn ⊢; omega
      have := ih (fun y hy => h y (List.mem_cons_of_mem _ hy)) n hlen
      show sumRest _ (n + 1) e (.op c :: .name w :: (tailToks l ++ rest)) = some (chain l (.binop (c == '+' || c == '-') e .name), rest)
      rw [← this]
      exact sumRest_step hc hf

/-- the parts of a term -/
theorem term_parts {s : Str} (h : Term s) : ∃ (w : Str) (l : List (Char × Str)), s = w ++ tailStr l ∧ Word w ∧ ∀ x ∈ l, Sep x.1 ∧ Word x.2 := by
  induction h with
  | @word w h => exact ⟨w, [], by simp [tailStr], h, by simp⟩
  | @more s w c _ hc hw ih =>
    obtain ⟨w0, l, rfl, h1, h2⟩ := ih
    refine ⟨w0, l ++ [(c, w)], by simp [tailStr], h1, ?_⟩
    intro x hx
    rcases List.mem_append.1 hx with hx | hx
    · exact h2 x hx
    · rw [List.mem_singleton.1 hx]; exact ⟨hc, hw⟩

theorem lx_tail {l : List (Char × Str)} (h : ∀ x ∈ l, Sep x.1 ∧ Word x.2) :
    Lx (tailStr l) (tailToks l) Ends ∧ (∀ rest, Ends rest → Ends (tailStr l ++ rest)) := by
  induction l with
  | nil => exact ⟨Lx.nil _, fun _ h => h⟩
  | cons x l ih =>
    obtain ⟨i1, i2⟩ := ih (fun y hy => h y (List.mem_cons_of_mem _ hy))
    obtain ⟨hc, hw⟩ := h x (by simp)
    have hop : Lx [x.1] [.op x.1] (fun _ => True) := by
      rcases hc with e | e | e | e <;> rw [e] <;>
        exact lx_op (by decide) (by decide) (by decide) (by decide) (by decide) (by decide) (by decide)
    refine ⟨?_, ?_⟩
    · have := hop.append ((lx_word hw).append i1 i2) (fun _ _ => trivial)
      simpa [tailStr, tailToks] using this
    · intro rest _
      unfold tailStr
      rw [List.flatMap_cons, List.cons_append, List.cons_append]
      rcases hc with e | e | e | e <;> rw [e] <;> exact ends_cons (by decide) (by decide) (by decide) (by decide)

theorem reads_term (d : Nat) {s : Str} (h : Term s) : ∃ e, Reads d s e ∧ convert e = .error .valueError := by
  obtain ⟨w, l, rfl, hw, hl⟩ := term_parts h
  obtain ⟨i1, i2⟩ := lx_tail hl
  refine ⟨chain l .name, ⟨.name w :: tailToks l, (lx_word hw).append i1 i2, ⟨_, _, rfl, by simp, by simp, by simp⟩, ?_⟩, left_fails (chain_left .name)⟩
  intro rest hrest
  have key : ∀ p, sum (factor (atom p)) (.name w :: (tailToks l ++ rest)) = some (chain l .name, rest) := by
    intro p
    unfold sum
    rw [factor_word p hw hrest]
    exact sumRest_chain p hl hrest _ (by omega) _
  cases d with
  | zero => exact key _
  | succ d => exact key _

/-! ### several parts -/

theorem reads_parts {d : Nat} {parts : List Str} {es : List Expr} (h : List.Forall₂ (Reads d) parts es) (hne : parts ≠ []) :
    ∃ tss, Lx (join [','] parts) (commas tss) Ends ∧ tss.length = parts.length ∧ List.Forall₂ (Ps (expr d)) tss es := by
  induction h with
  | nil => exact absurd rfl hne
  | @cons p e ps es h1 h2 ih =>
    obtain ⟨ts, g1, g2⟩ := h1
    cases ps with
    | nil =>
      cases h2
      exact ⟨[ts], g1, rfl, .cons g2 .nil⟩
    | cons p' ps =>
      obtain ⟨tss, k1, k2, k3⟩ := ih (by simp)
      refine ⟨ts :: tss, ?_, by simp [k2], .cons g2 k3⟩
      have hc : Lx [','] [.op ','] (fun _ => True) :=
        lx_op (by decide) (by decide) (by decide) (by decide) (by decide) (by decide) (by decide)
      have := g1.append (hc.append k1 (fun _ _ => trivial)) (fun rest _ => cut_ends ⟨',', _, rfl, Or.inl rfl⟩)
      have e1 : commas (ts :: tss) = ts ++ .op ',' :: commas tss := by
        cases tss with
        | nil => simp at k2
        | cons _ _ => rfl
      rw [e1]
      simpa [join] using this

theorem lex_whole {s : Str} {ts : List Tok} (h : Lx s ts Ends) : lex s.length s = some (ts ++ [.stop]) := by
  obtain ⟨m, _, hm⟩ := h [] ends_nil s.length (by simp)
  rw [List.append_nil, lex_nil] at hm
  exact hm

theorem parse_whole {ts : List Tok} {e : Expr} (h : Ps (expr maxLevel) ts e) : parse (ts ++ [.stop]) = some e := by
  unfold parse
  rw [h.2 [.stop] ⟨_, _, rfl, by simp⟩]
  simp

theorem litEval_reads {s : Str} {e : Expr} (h : Reads maxLevel s e) : litEval s = convert e := by
  obtain ⟨ts, h1, h2⟩ := h
  unfold litEval
  rw [lex_whole h1]
  simp only [parse_whole h2]

/-- parts that are literals, or not because of a name in them: with one of the latter, the whole is not -/
theorem convertAll_fails (hash : Bool) {es : List Expr} (h : ∀ e ∈ es, (∃ v, convert e = .ok v ∧ hashable v = true) ∨ convert e = .error .valueError)
    (h' : ∃ e ∈ es, convert e = .error .valueError) : convertAll hash es = .error .valueError := by
  induction es with
  | nil => obtain ⟨e, he, _⟩ := h'; cases he
  | cons e es ih =>
    rcases h e (by simp) with ⟨v, h1, h2⟩ | h1
    · have := ih (fun x hx => h x (List.mem_cons_of_mem _ hx)) (by
        obtain ⟨x, hx, hx'⟩ := h'
        rcases List.mem_cons.1 hx with rfl | hx
        · rw [h1] at hx'; cases hx'
        · exact ⟨x, hx, hx'⟩)
      simp [convertAll, h1, h2, this]
    · simp [convertAll, h1]

theorem parens_one {p : Parser} {ts : List Tok} {e : Expr} (h : Ps p ts e) (rest : List Tok) :
    parens p (ts ++ .op ')' :: rest) = some (e, rest) := by
  unfold parens
  rw [if_neg, h.2 _ ⟨_, _, rfl, by simp⟩]
  · simp
  · obtain ⟨⟨t, r, rfl, h5, _⟩, _⟩ := h
    intro h
    injection h with h
    exact h5 h

theorem lx_bracket {c : Char} (h : c = '(' ∨ c = ')' ∨ c = '{' ∨ c = '}') : Lx [c] [.op c] (fun _ => True) := by
  rcases h with rfl | rfl | rfl | rfl <;> exact lx_op (by decide) (by decide) (by decide) (by decide) (by decide) (by decide) (by decide)

/-- one value in parentheses is that value -/
theorem reads_one {d : Nat} {s : Str} {e : Expr} (h : Reads d s e) : Reads (d + 1) ('(' :: (s ++ [')'])) e := by
  obtain ⟨ts, h1, h2⟩ := h
  refine ⟨.op '(' :: (ts ++ [.op ')']), ?_, ?_⟩
  · have := (lx_bracket (c := '(') (by simp)).append (h1.append (lx_bracket (c := ')') (by simp)) (fun rest _ => cut_ends ⟨')', _, rfl, by simp⟩)) (fun _ _ => trivial)
    exact fun rest _ => this rest trivial
  · refine ⟨⟨_, _, rfl, by decide, by decide, by decide⟩, ?_⟩
    intro rest hrest
    rw [List.cons_append, List.append_assoc, List.singleton_append]
    refine expr_atom (d + 1) (by decide) (fun p hp => ?_) hrest
    rcases hp with hp | ⟨k, hk, rfl⟩
    · omega
    · obtain rfl : d = k := by omega
      exact parens_one h2 rest

/-- **collections with words are no literals** -/
theorem collection_fails {o c : Char} (ho : Brackets o c) {parts : List Str} {es : List Expr}
    (h : List.Forall₂ (Reads 199) parts es)
    (h1 : ∀ e ∈ es, (∃ v, convert e = .ok v ∧ hashable v = true) ∨ convert e = .error .valueError)
    (h2 : ∃ e ∈ es, convert e = .error .valueError) : Fails (o :: (join [','] parts ++ [c])) := by
  have hne : parts ≠ [] := by
    rintro rfl
    cases h
    obtain ⟨e, he, _⟩ := h2
    cases he
  obtain ⟨tss, k1, k2, k3⟩ := reads_parts h hne
  right
  have hlx : Brackets o c → Lx (o :: (join [','] parts ++ [c])) (.op o :: (commas tss ++ [.op c])) Ends := by
    intro ho
    have := (lx_bracket (c := o) (by rcases ho with ⟨rfl, rfl⟩ | ⟨rfl, rfl⟩ <;> simp)).append
      (k1.append (lx_bracket (c := c) (by rcases ho with ⟨rfl, rfl⟩ | ⟨rfl, rfl⟩ <;> simp))
        (fun rest _ => cut_ends ⟨c, rest, rfl, by rcases ho with ⟨rfl, rfl⟩ | ⟨rfl, rfl⟩ <;> simp⟩)) (fun _ _ => trivial)
    exact fun rest _ => this rest trivial
  have hlx := hlx ho
  rcases ho with ⟨rfl, rfl⟩ | ⟨rfl, rfl⟩
  · by_cases hl : 2 ≤ parts.length
    · have := litEval_reads ⟨_, hlx, ps_parens 199 k3 (by omega)⟩
      rw [this]
      simp [convert, convertAll_fails false h1 h2, Except.map]
    · cases h with
      | nil => exact absurd rfl hne
      | @cons p e ps es g1 g2 =>
        cases ps with
        | cons _ _ => simp at hl
        | nil =>
          cases g2
          have := litEval_reads (reads_one g1)
          show litEval ('(' :: (p ++ [')'])) = _
          rw [this]
          obtain ⟨x, hx, hx'⟩ := h2
          rw [List.mem_singleton.1 hx] at hx'
          exact hx'
  · have := litEval_reads ⟨_, hlx, ps_braces 199 k3 (by
      rw [k2]
      cases parts with
      | nil => exact absurd rfl hne
      | cons _ _ => simp)⟩
    rw [this]
    simp [convert, convertAll_fails true h1 h2, Except.map]

/-! ### units -/

/-- a `<` after a value -/
theorem items_stuck {p : Parser} {close : Tok} (hc : close = .op ')' ∨ close = .op '}' ∨ close = .stop) {tss : List (List Tok)} {es : List Expr}
    (h : List.Forall₂ (Ps p) tss es) (hne : tss ≠ []) (rest : List Tok) (n : Nat) :
    items p close n (commas tss ++ .op '<' :: rest) = none := by
  have hcomma : close ≠ .op ',' := by rcases hc with rfl | rfl | rfl <;> decide
  have hlt : close ≠ .op '<' := by rcases hc with rfl | rfl | rfl <;> decide
  have hhead : ∀ (ts x : List Tok) (e : Expr), Ps p ts e → ¬ ((ts ++ x).head? = some close) := by
    rintro ts x e ⟨⟨t, r, rfl, h1, h2, h3⟩, _⟩ h
    injection h with h
    rcases hc with rfl | rfl | rfl
    · exact h1 h
    · exact h2 h
    · exact h3 h
  induction h generalizing n with
  | nil => exact absurd rfl hne
  | @cons ts e tss es h1 h2 ih =>
    cases n with
    | zero => rfl
    | succ n =>
      cases h2 with
      | nil =>
        show items p close (n + 1) (ts ++ .op '<' :: rest) = _
        unfold items
        rw [if_neg (hhead _ _ _ h1), h1.2 _ ⟨_, _, rfl, by simp⟩]
        simp [Ne.symm hlt]
      | @cons ts' e' tss es h2 h3 =>
        have := ih (by simp) n
        show items p close (n + 1) (ts ++ .op ',' :: commas (ts' :: tss) ++ .op '<' :: rest) = _
        rw [List.append_assoc, List.cons_append]
        unfold items
        rw [if_neg (hhead _ _ _ h1), h1.2 _ (follows_comma _)]
        simp only [List.head?_cons, Option.some.injEq, List.tail_cons]
        rw [if_neg (Ne.symm hcomma), if_pos trivial, this]
        rfl

theorem parens_stuck {p : Parser} {tss : List (List Tok)} {es : List Expr} (h : List.Forall₂ (Ps p) tss es) (hne : tss ≠ [])
    (rest : List Tok) : parens p (commas tss ++ .op '<' :: rest) = none := by
  cases h with
  | nil => exact absurd rfl hne
  | @cons ts e tss es h1 h2 =>
    have hh : ∀ x, ¬ ((ts ++ x).head? = some (.op ')')) := by
      obtain ⟨⟨t, r, rfl, h5, _⟩, _⟩ := h1
      intro x h
      injection h with h
      exact h5 h
    cases h2 with
    | nil =>
      show parens p (ts ++ .op '<' :: rest) = _
      unfold parens
      rw [if_neg (hh _), h1.2 _ ⟨_, _, rfl, by simp⟩]
      simp
    | @cons ts' e' tss es h2 h3 =>
      show parens p (ts ++ .op ',' :: commas (ts' :: tss) ++ .op '<' :: rest) = _
      rw [List.append_assoc, List.cons_append]
      unfold parens
      rw [if_neg (hh _), h1.2 _ (follows_comma _)]
      simp only [List.head?_cons, Option.some.injEq, List.tail_cons]
      rw [if_neg (by decide), if_pos trivial, items_stuck (Or.inl rfl) (List.Forall₂.cons h2 h3) (by simp) rest]
      rfl

/-- **values followed by `<` are no literals** -/
theorem bare_lt_fails {s rest : Str} {e : Expr} (h : Reads maxLevel s e) : Fails (s ++ '<' :: rest) := by
  obtain ⟨ts, h1, h2⟩ := h
  have hlt : Lx ['<'] [.op '<'] (fun _ => True) :=
    lx_op (by decide) (by decide) (by decide) (by decide) (by decide) (by decide) (by decide)
  obtain ⟨m, _, hm⟩ := (h1.append hlt (fun r _ => ends_cons (by decide) (by decide) (by decide) (by decide))) rest trivial
    (s ++ '<' :: rest).length (by simp; omega)
  rw [List.append_assoc, List.singleton_append] at hm
  cases hl : lex m rest with
  | none => rw [hl] at hm; exact fails_lex hm
  | some us =>
    rw [hl] at hm
    refine fails_parse hm ?_
    show parse (ts ++ [Tok.op '<'] ++ us) = none
    rw [List.append_assoc, List.singleton_append]
    unfold parse
    rw [h2.2 _ ⟨_, _, rfl, by simp⟩]
    simp

theorem paren_lt_fails {parts : List Str} {es : List Expr} (h : List.Forall₂ (Reads 199) parts es) (hne : parts ≠ []) (rest : Str) :
    Fails ('(' :: (join [','] parts ++ '<' :: rest)) := by
  obtain ⟨tss, k1, k2, k3⟩ := reads_parts h hne
  have hlt : Lx ['<'] [.op '<'] (fun _ => True) :=
    lx_op (by decide) (by decide) (by decide) (by decide) (by decide) (by decide) (by decide)
  obtain ⟨m, _, hm⟩ := ((lx_bracket (c := '(') (by simp)).append (k1.append hlt (fun r _ => ends_cons (by decide) (by decide) (by decide) (by decide)))
    (fun _ _ => trivial)) rest trivial ('(' :: (join [','] parts ++ '<' :: rest)).length (by simp; omega)
  have e1 : ['('] ++ (join [','] parts ++ ['<']) ++ rest = '(' :: (join [','] parts ++ '<' :: rest) := by simp
  rw [e1] at hm
  cases hl : lex m rest with
  | none => rw [hl] at hm; exact fails_lex hm
  | some us =>
    rw [hl] at hm
    refine fails_parse hm ?_
    have e2 : [Tok.op '('] ++ (commas tss ++ [Tok.op '<']) ++ us = .op '(' :: (commas tss ++ .op '<' :: us) := by simp
    beta_reduce
    rw [e2]
    unfold parse
    have : expr maxLevel (.op '(' :: (commas tss ++ .op '<' :: us)) = none := by
      show sum (factor (atom (expr 199))) (.op '(' :: (commas tss ++ .op '<' :: us)) = none
      unfold sum
      have : factor (atom (expr 199)) (.op '(' :: (commas tss ++ .op '<' :: us)) = none :=
        parens_stuck k3 (by rintro rfl; simp at k2; exact hne (List.length_eq_zero_iff.1 k2.symm)) us
      rw [this]
    rw [this]

end Verif.Value
