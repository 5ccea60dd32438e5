import Verif.Lemmas.Literal

/-!
# C04, C34, C35: radix integers and quantities in labels
`litEval` is `ast.literal_eval`, an arbitrary partial function.
-/
namespace Verif.Literal
open Verif.Py Spec

theorem signed_of_numeral {b : Nat} {s : Str} {n : Nat} (h : Numeral b s n) : SignedNumeral b s n :=
  .inl ⟨n, h, rfl⟩

theorem radix_guard {b : Nat} {base rest : Str} (h4 : Numeral 10 base b) (h3 : base.length ≤ 2) :
    (!startsWith (base ++ '#' :: rest) c!"\"" &&
      decide ('#' ∈ ((base ++ '#' :: rest).drop 1).take 2)) = true := by
  have hne := numeral_all h4
  clear h4
  match base, hne, h3 with
  | [], hne, _ => exact absurd rfl hne.1
  | [a], hne, _ =>
    obtain ⟨d, hd⟩ := hne.2 a (by simp)
    have hq := (digit_ne hd).2.2.2.2.1
    simp [startsWith, List.isPrefixOf, Ne.symm hq]
  | [a, a'], hne, _ =>
    obtain ⟨d, hd⟩ := hne.2 a (by simp)
    have hq := (digit_ne hd).2.2.2.2.1
    simp [startsWith, List.isPrefixOf, Ne.symm hq]
  | _ :: _ :: _ :: _, _, h3 => simp at h3

/-- **C04.** A radix integer `B#digits#` (base 2..36, any number of digits of either case, optional
sign) is read as the integer it denotes. -/
theorem C04_radix_integer (litEval : Str → Except PyErr Val) (s : Str) (n : Int) (h : RadixText s n) :
    ∃ v, literalizePvl litEval s = .ok v ∧ v = .int n := by
  obtain ⟨b, base, digits, h1, h2, h3, h4, h5, rfl⟩ := h
  refine ⟨_, ?_, rfl⟩
  have hp := parseNonBase10_ok h1 h2 (e := '#') (signed_of_numeral h4) h5
  have hguard := radix_guard (rest := digits ++ ['#']) h4 h3
  unfold literalizePvl literalize
  simp only [hguard, if_true, hp]

/-- **C04.** Every natural number has a numeral in every base from 2 to 36 (so C04 is about all
integers). -/
theorem C04_every_integer_has_a_numeral (b : Nat) (hb : 2 ≤ b) (hb' : b ≤ 36) (n : Nat) :
    ∃ s, Numeral b s n := by
  have hdig : ∀ d, d < b → ∃ c, DigitOf c d := by
    intro d hd
    by_cases h : d < 10
    · refine ⟨Char.ofNat (48 + d), .inl ⟨h, ?_⟩⟩
      have hv : Nat.isValidChar (48 + d) := by left; omega
      rw [Char.ofNat, dif_pos hv]; rfl
    · refine ⟨Char.ofNat (97 + (d - 10)), .inr ⟨by omega, by omega, .inl ?_⟩⟩
      have hv : Nat.isValidChar (97 + (d - 10)) := by left; omega
      rw [Char.ofNat, dif_pos hv]; rfl
  have happ : ∀ (ds : List Nat) (d : Nat), value b (ds ++ [d]) = value b ds * b + d := by
    intro ds d
    induction ds with
    | nil => simp [value]
    | cons x ds ih =>
      simp only [List.cons_append, value, List.length_append, List.length_singleton, ih]
      ring
  induction n using Nat.strongRecOn with
  | ind n ih =>
    by_cases hn : n < b
    · obtain ⟨c, hc⟩ := hdig n hn
      exact ⟨[c], [n], .cons hc .nil, by simp, by simpa using hn, by simp [value]⟩
    · have hlt : n / b < n := Nat.div_lt_self (by omega) hb
      obtain ⟨s, ds, g1, g2, g3, g4⟩ := ih (n / b) hlt
      obtain ⟨c, hc⟩ := hdig (n % b) (Nat.mod_lt _ (by omega))
      refine ⟨s ++ [c], ds ++ [n % b], List.rel_append g1 (.cons hc .nil), by simp, ?_, ?_⟩
      · intro d hd
        rcases List.mem_append.1 hd with hd | hd
        · exact g3 d hd
        · simp at hd; subst hd; exact Nat.mod_lt _ (by omega)
      · rw [happ, g4, Nat.mul_comm]; exact Nat.div_add_mod n b

/-- Non-vacuity: `16#-fF#` denotes -255. -/
example : RadixText c!"16#-fF#" (-255) := by
  have d1 : DigitOf '1' 1 := .inl ⟨by decide, rfl⟩
  have d6 : DigitOf '6' 6 := .inl ⟨by decide, rfl⟩
  have df : DigitOf 'f' 15 := .inr ⟨by decide, by decide, .inl rfl⟩
  have dF : DigitOf 'F' 15 := .inr ⟨by decide, by decide, .inr rfl⟩
  exact ⟨16, c!"16", c!"-fF", by decide, by decide, by decide,
    ⟨[1, 6], .cons d1 (.cons d6 .nil), by simp, by decide, rfl⟩,
    .inr (.inr ⟨c!"fF", 255, rfl, ⟨[15, 15], .cons df (.cons dF .nil), by simp, by decide, rfl⟩, rfl⟩),
    rfl⟩

theorem splitOn_one_inv (u z : Str) (h : splitOn '#' u = [z]) : '#' ∉ u ∧ u = z := by
  induction u generalizing z with
  | nil => simp [splitOn] at h; exact ⟨by simp, h.symm⟩
  | cons c u ih2 =>
    rw [splitOn] at h
    split at h
    · injection h with _ h3
      exact absurd h3 (splitOn_ne_nil _ _)
    · rename_i hc
      split at h
      · rename_i e; exact absurd e (splitOn_ne_nil _ _)
      · rename_i w ws e
        injection h with h1 h2
        subst h1 h2
        obtain ⟨g1, g2⟩ := ih2 w e
        exact ⟨by simp [Ne.symm hc, g1], by rw [g2]⟩

theorem splitOn_two_inv (t x y : Str) (h : splitOn '#' t = [x, y]) :
    t = x ++ '#' :: y ∧ '#' ∉ x ∧ '#' ∉ y := by
  induction t generalizing x y with
  | nil => simp [splitOn] at h
  | cons c t ih =>
    rw [splitOn] at h
    split at h
    · rename_i hc
      injection h with h1 h2
      subst h1 hc
      obtain ⟨g1, rfl⟩ := splitOn_one_inv t y h2
      exact ⟨rfl, by simp, g1⟩
    · rename_i hc
      split at h
      · rename_i e; exact absurd e (splitOn_ne_nil _ _)
      · rename_i w ws e
        injection h with h1 h2
        subst h1 h2
        obtain ⟨g1, g2, g3⟩ := ih w y e
        exact ⟨by rw [g1]; rfl, by simp [Ne.symm hc, g2], g3⟩

/-- **C04.** What the radix reader accepts is always of the form `base#digits` followed by one more
character, with a legal base and digits that Python accepts in that base; anything else is an error
(and `literalize_pvl` then keeps the text). -/
theorem C04_radix_sound (s : Str) (n : Int) (h : parseNonBase10 s = .ok n) :
    ∃ (base digits : Str) (b : Int), s.dropLast = base ++ '#' :: digits ∧ '#' ∉ base ∧ '#' ∉ digits ∧
      pyInt base 10 = some b ∧ (b = 0 ∨ (2 ≤ b ∧ b ≤ 36)) ∧ pyInt digits b = some n := by
  unfold parseNonBase10 at h
  split at h
  · rename_i base digits e
    obtain ⟨g1, g2, g3⟩ := splitOn_two_inv _ _ _ e
    split at h
    · cases h
    · rename_i b hb
      split at h
      · cases h
      · rename_i m hm
        cases h
        refine ⟨base, digits, b, g1, g2, g3, hb, ?_, hm⟩
        by_contra hcon
        unfold pyInt at hm
        rw [if_pos (by omega)] at hm
        cases hm
  · cases h

theorem digitOf_of_val {c : Char} {d : Nat} (h : digitVal c = some d) : DigitOf c d := by
  have e0 : ('0' : Char).toNat = 48 := rfl
  have ea : ('a' : Char).toNat = 97 := rfl
  have eA : ('A' : Char).toNat = 65 := rfl
  unfold DigitOf
  rw [e0, ea, eA]
  unfold digitVal at h
  simp only at h
  split at h
  · cases h; left; omega
  · split at h
    · cases h; right; omega
    · split at h
      · cases h; right; omega
      · cases h

theorem digitsVal_inv {b : Nat} (cs : Str) (hu : '_' ∉ cs) : ∀ (acc : Nat) (u : Bool) (m : Nat),
    digitsVal b acc u cs = some m →
      ∃ ds, List.Forall₂ DigitOf cs ds ∧ (u = true → ds ≠ []) ∧ (∀ d ∈ ds, d < b) ∧ m = acc * b ^ ds.length + value b ds := by
  induction cs with
  | nil =>
    intro acc u m h
    rw [digitsVal] at h
    cases u with
    | true => cases h
    | false => cases h; exact ⟨[], .nil, by simp, by simp, by simp [value]⟩
  | cons c cs ih =>
    intro acc u m h
    rw [digitsVal, if_neg (by rintro rfl; simp at hu)] at h
    split at h
    · cases h
    · rename_i d hd
      split at h
      · rename_i hlt
        obtain ⟨ds, h1, _, h3, h4⟩ := ih (fun h => hu (by simp [h])) _ _ _ h
        refine ⟨d :: ds, .cons (digitOf_of_val hd) h1, by simp, ?_, ?_⟩
        · intro x hx
          rcases List.mem_cons.1 hx with rfl | hx
          · exact hlt
          · exact h3 x hx
        · rw [h4]; simp only [value, List.length_cons]; ring
      · cases h

/-- **C04 (only numerals).** A radix integer written with letters and digits only (and no `0x`-like prefix
of its own base, which Python allows) is accepted only if every digit is one of the base, and is then the
number those digits denote. -/
theorem C04_only_numerals (b : Nat) (base digits : Str) (e : Char) (n : Int) (hb : 2 ≤ b) (hb' : b ≤ 36)
    (hbase : Numeral 10 base b) (hd : ∀ c ∈ digits, ∃ d, DigitOf c d)
    (hpre : ∀ c r, digits = '0' :: c :: r → (c, b) ∉ [('x', 16), ('X', 16), ('o', 8), ('O', 8), ('b', 2), ('B', 2)])
    (h : parseNonBase10 (base ++ '#' :: (digits ++ [e])) = .ok n) :
    ∃ m : Nat, n = (m : Int) ∧ Numeral b digits m := by
  have hpre : ∀ r, radixPrefix digits ≠ some (b, r) := by
    intro r hr
    unfold radixPrefix at hr
    split at hr
    · rename_i c rest
      have := hpre c rest rfl
      simp only [List.mem_cons, Prod.mk.injEq, List.not_mem_nil, or_false, not_or] at this
      split at hr
      · rename_i hc; injection hr with hr; injection hr with h1 h2; subst h1
        rcases hc with rfl | rfl <;> simp at this
      · split at hr
        · rename_i hc; injection hr with hr; injection hr with h1 h2; subst h1
          rcases hc with rfl | rfl <;> simp at this
        · split at hr
          · rename_i hc; injection hr with hr; injection hr with h1 h2; subst h1
            rcases hc with rfl | rfl <;> simp at this
          · cases hr
    · cases hr
  obtain ⟨base', digits', b', h1, h2, h3, h4, _, h6⟩ := C04_radix_sound _ _ h
  have e1 : (base ++ '#' :: (digits ++ [e])).dropLast = base ++ '#' :: digits := by
    rw [show base ++ '#' :: (digits ++ [e]) = (base ++ '#' :: digits) ++ [e] by simp, List.dropLast_concat]
  rw [e1] at h1
  have hnb : '#' ∉ base := by
    intro hm
    obtain ⟨d, hd⟩ := (numeral_all hbase).2 _ hm
    exact (digit_ne hd).2.1 rfl
  have hsplit : base = base' ∧ digits = digits' := by
    have := congrArg (splitOn '#') h1
    rw [splitOn_append _ _ _ hnb, splitOn_append _ _ _ h2] at this
    injection this with g1 g2
    refine ⟨g1, ?_⟩
    rw [splitOn_notMem _ _ h3] at g2
    exact (splitOn_one_inv _ _ g2).2
  obtain ⟨rfl, rfl⟩ := hsplit
  have hbb : pyInt base 10 = some (b : Int) := pyInt_ok (b := 10) (.inl ⟨b, hbase, rfl⟩) (by decide) (by decide)
  rw [hbb] at h4
  cases h4
  unfold pyInt at h6
  rw [if_neg (by omega)] at h6
  have hstrip : strip digits = digits := by
    have hsp : ∀ c ∈ digits, isSpace c = false := fun c hc => by
      obtain ⟨d, hd⟩ := hd c hc; exact (digit_ne hd).2.2.2.2.2.2.2.2.2.2.2
    exact strip_self _ (fun c hc => hsp c (List.mem_of_mem_head? hc)) (fun c hc => hsp c (List.mem_of_getLast? hc))
  rw [hstrip, Int.toNat_natCast] at h6
  have hus : '_' ∉ digits := fun hm => by obtain ⟨d, hd⟩ := hd _ hm; exact (digit_ne hd).1 rfl
  have key : ∀ m, unsignedInt b digits = some m → Numeral b digits m := by
    intro m hm
    unfold unsignedInt at hm
    simp only at hm
    have hdv : digitsVal b 0 true digits = some m := by
      cases hp : radixPrefix digits with
      | none => rw [hp] at hm; simp only at hm; rwa [if_neg (by omega)] at hm
      | some pr =>
        obtain ⟨p, r⟩ := pr
        rw [hp] at hm
        simp only at hm
        rwa [if_neg (by
          rintro (h | h)
          · omega
          · subst h; exact hpre r hp)] at hm
    obtain ⟨ds, g1, g2, g3, g4⟩ := digitsVal_inv digits hus 0 true m hdv
    exact ⟨ds, g1, g2 rfl, g3, by rw [g4]; simp⟩
  cases digits with
  | nil =>
    simp only at h6
    cases hu : unsignedInt b [] with
    | none => rw [hu] at h6; cases h6
    | some m => rw [hu] at h6; cases h6; exact ⟨m, rfl, key m hu⟩
  | cons c cs =>
    obtain ⟨d, hd0⟩ := hd c (by simp)
    have hne := digit_ne hd0
    split at h6
    · rename_i r heq; injection heq with h _; exact absurd h hne.2.2.1
    · rename_i r heq; injection heq with h _; exact absurd h hne.2.2.2.1
    · cases hu : unsignedInt b (c :: cs) with
      | none => rw [hu] at h6; cases h6
      | some m => rw [hu] at h6; cases h6; exact ⟨m, rfl, key m hu⟩

/-- Non-vacuity: `8#17#` is 15; `8#18#` and `2#12#` are errors. -/
example : parseNonBase10 c!"8#17#" = .ok 15 ∧ parseNonBase10 c!"8#18#" = .error .syntaxError ∧
    parseNonBase10 c!"2#12#" = .error .syntaxError := ⟨rfl, rfl, rfl⟩

/-- **C34 (limit of C04).** The final character of a radix integer is dropped without being looked
at: a missing final `#` silently costs the last digit, whatever it is. -/
theorem C34_last_character_ignored (t : Str) (e e' : Char) :
    parseNonBase10 (t ++ [e]) = parseNonBase10 (t ++ [e']) := by
  unfold parseNonBase10
  rw [List.dropLast_concat, List.dropLast_concat]

/-- **C34.** So `B#digits` followed by a further digit instead of `#` is read as the integer without
that digit, for every base, digit string and digit. -/
theorem C34_unterminated_radix_integer (litEval : Str → Except PyErr Val) (s : Str) (n : Int) (e : Char)
    (h : RadixText (s ++ ['#']) n) :
    ∃ v, literalizePvl litEval (s ++ [e]) = .ok v ∧ v = .int n := by
  obtain ⟨b, base, digits, h1, h2, h3, h4, h5, h6⟩ := h
  have hs : s = base ++ '#' :: digits := by
    have : (base ++ '#' :: (digits ++ ['#'])) = (base ++ '#' :: digits) ++ ['#'] := by simp
    rw [this] at h6
    exact List.append_cancel_right h6
  subst hs
  refine ⟨_, ?_, rfl⟩
  have hp := parseNonBase10_ok h1 h2 (e := e) (signed_of_numeral h4) h5
  have hguard := radix_guard (rest := digits ++ [e]) h4 h3
  rw [show (base ++ '#' :: digits) ++ [e] = base ++ '#' :: (digits ++ [e]) by simp]
  unfold literalizePvl literalize
  simp only [hguard, if_true, hp]

/-- **C34.** With a two-digit base, a sign in front of the whole integer (`-16#FF#`) keeps the radix
reader from being used at all: the text goes to Python's literal reader (for which `#` begins a
comment). -/
theorem C34_leading_sign_bypasses_radix (litEval : Str → Except PyErr Val) (a b : Char) (rest : Str) (v : Val)
    (ha : a ≠ '#') (hb : b ≠ '#') (hlit : litEval ('-' :: a :: b :: rest) = .ok v) :
    literalizePvl litEval ('-' :: a :: b :: rest) = .ok v := by
  unfold literalizePvl literalize
  have : (!startsWith ('-' :: a :: b :: rest) c!"\"" &&
      decide ('#' ∈ (('-' :: a :: b :: rest).drop 1).take 2)) = false := by
    simp [Ne.symm ha, Ne.symm hb]
  simp only [this, Bool.false_eq_true, if_false, hlit]

/-! ### collections of radix integers -/

theorem dropWhile_stop {p : Char → Bool} {l : Str} (h : ∀ c, l.head? = some c → p c = false) :
    l.dropWhile p = l := by
  cases l with
  | nil => rfl
  | cons a l => simp [h a rfl]

theorem stripChars_wrap {cs : List Char} {pre body post : Str} (h1 : ∀ c ∈ pre, c ∈ cs)
    (h2 : ∀ c ∈ post, c ∈ cs) (hh : ∀ c, body.head? = some c → c ∉ cs)
    (hl : ∀ c, body.getLast? = some c → c ∉ cs) (hne : body ≠ []) :
    stripChars cs (pre ++ body ++ post) = body := by
  unfold stripChars
  rw [List.append_assoc, List.dropWhile_append_of_pos (by simpa using h1)]
  rw [dropWhile_stop (l := body ++ post) (by
    intro c hc
    cases body with
    | nil => exact absurd rfl hne
    | cons a body => simp at hc; subst hc; simpa using hh a rfl)]
  rw [List.reverse_append, List.dropWhile_append_of_pos (by simpa using h2)]
  rw [dropWhile_stop (by
    intro c hc
    rw [List.head?_reverse] at hc
    simpa using hl c hc), List.reverse_reverse]

theorem filter_join (sep : Char) (hs : sep ≠ ' ') (ps : List Str) :
    (join [sep] ps).filter (· ≠ ' ') = join [sep] (ps.map (·.filter (· ≠ ' '))) := by
  induction ps with
  | nil => rfl
  | cons p ps ih =>
    cases ps with
    | nil => rfl
    | cons q ps =>
      simp only [join, List.filter_append, List.map_cons] at ih ⊢
      rw [ih]
      simp [hs]

theorem radixAhead_of (a rest : Str) (d : Char) (ha : '\n' ∉ a) (hd : '0' ≤ d ∧ d ≤ '9') :
    radixAhead (a ++ d :: '#' :: rest) = true := by
  have hdn : d ≠ '\n' := by rintro rfl; revert hd; decide
  induction a with
  | nil => simp [radixAhead, hd, hdn]
  | cons c a ih =>
    simp only [List.mem_cons, not_or] at ha
    cases a with
    | nil => simp only [List.cons_append, List.nil_append, radixAhead] at ih ⊢
             rw [if_neg (Ne.symm ha.1)]
             simp [hd, hdn]
    | cons c' a =>
      have := ih ha.2
      simp only [List.cons_append] at this ⊢
      rw [radixAhead, if_neg (Ne.symm ha.1), this]
      simp

theorem radix_chars {s : Str} {n : Int} (h : RadixText s n) :
    s ≠ [] ∧ ∀ c ∈ s, c ≠ ',' ∧ c ≠ ' ' ∧ c ≠ '(' ∧ c ≠ ')' ∧ c ≠ '{' ∧ c ≠ '}' ∧ c ≠ '\n' := by
  obtain ⟨b, base, digits, h1, h2, h3, h4, h5, rfl⟩ := h
  refine ⟨by simp, ?_⟩
  intro c hc
  have hsp : ∀ c, isSpace c = false → c ≠ '\n' := by rintro c h rfl; revert h; decide
  simp only [List.mem_append, List.mem_cons, List.not_mem_nil, or_false] at hc
  rcases hc with hc | rfl | hc | rfl
  · obtain ⟨a1, a2, a3, a4, a5, a6, a7, a8, a9⟩ := signed_char (signed_of_numeral h4) c hc
    exact ⟨a2, a3, a4, a5, a6, a7, hsp c a9⟩
  · decide
  · obtain ⟨a1, a2, a3, a4, a5, a6, a7, a8, a9⟩ := signed_char h5 c hc
    exact ⟨a2, a3, a4, a5, a6, a7, hsp c a9⟩
  · decide

theorem parseAll_ok {items : List Str} {ns : List Int} (h : List.Forall₂ RadixText items ns) :
    parseAll items = .ok (ns.map .int) := by
  induction h with
  | nil => rfl
  | cons h1 h2 ih =>
    obtain ⟨b, base, digits, g1, g2, g3, g4, g5, rfl⟩ := h1
    rw [parseAll, parseNonBase10_ok g1 g2 (signed_of_numeral g4) g5, ih]
    rfl

theorem parseNonBase10_hashes (t : Str) (e : Char) (h : 2 ≤ t.count '#') :
    parseNonBase10 (t ++ [e]) = .error .syntaxError := by
  unfold parseNonBase10
  rw [List.dropLast_concat]
  split
  · rename_i x y he
    obtain ⟨rfl, h2, h3⟩ := splitOn_two_inv _ _ _ he
    rw [List.count_append, List.count_cons_self, List.count_eq_zero.2 h2, List.count_eq_zero.2 h3] at h
    omega
  · rfl

theorem join_mem {sep : Char} {ps : List Str} {x : Char} (h : x ∈ join [sep] ps) :
    x = sep ∨ ∃ p ∈ ps, x ∈ p := by
  induction ps with
  | nil => simp [join] at h
  | cons p ps ih =>
    cases ps with
    | nil => exact .inr ⟨p, by simp, by simpa [join] using h⟩
    | cons q ps =>
      rw [join] at h
      · simp only [List.mem_append, List.mem_singleton] at h
        rcases h with (h | h) | h
        · exact .inr ⟨p, by simp, h⟩
        · exact .inl h
        · rcases ih h with h | ⟨p', h1, h2⟩
          · exact .inl h
          · exact .inr ⟨p', by simp at h1 ⊢; tauto, h2⟩
      · simp

theorem padded_filter {p : Str} {n : Int} (h : PaddedRadix p n) : RadixText (p.filter (· ≠ ' ')) n := by
  obtain ⟨a, i, b, rfl, hsp, hr⟩ := h
  have h1 : ∀ x ∈ a, x = ' ' := fun x hx => hsp x (by simp [hx])
  have h2 : ∀ x ∈ b, x = ' ' := fun x hx => hsp x (by simp [hx])
  have e1 : a.filter (· ≠ ' ') = [] := List.filter_eq_nil_iff.2 (fun x hx => by simp [h1 x hx])
  have e2 : b.filter (· ≠ ' ') = [] := List.filter_eq_nil_iff.2 (fun x hx => by simp [h2 x hx])
  have e3 : i.filter (· ≠ ' ') = i := List.filter_eq_self.2 (fun x hx => by
    simpa using ((radix_chars hr).2 x hx).2.1)
  rw [List.filter_append, List.filter_append, e1, e2, e3]
  simpa using hr

theorem padded_chars {p : Str} {n : Int} (h : PaddedRadix p n) :
    p ≠ [] ∧ (∀ x ∈ p, x ≠ ',' ∧ x ≠ '(' ∧ x ≠ ')' ∧ x ≠ '{' ∧ x ≠ '}' ∧ x ≠ '\n' ∧ x ≠ '<') ∧
    2 ≤ p.count '#' ∧ ∃ a d rest, p = a ++ d :: '#' :: rest ∧ ('0' ≤ d ∧ d ≤ '9') := by
  obtain ⟨a, i, b, rfl, hsp, hr⟩ := h
  have hc := radix_chars hr
  have hlt : ∀ x ∈ i, x ≠ '<' := by
    obtain ⟨b', base, digits, h1, h2, h3, h4, h5, rfl⟩ := hr
    intro x hx
    simp only [List.mem_append, List.mem_cons, List.not_mem_nil, or_false] at hx
    have hdl : ∀ x d, DigitOf x d → x ≠ '<' := by
      rintro x d hd rfl
      have : digitVal '<' = none := rfl
      rw [digitVal_of hd] at this; cases this
    have hs : ∀ {b : Nat} {s : Str} {n : Int}, SignedNumeral b s n → ∀ x ∈ s, x ≠ '<' := by
      intro b s n h x hx
      rcases (signed_all h).2 x hx with (rfl | rfl) | ⟨d, hd⟩
      · decide
      · decide
      · exact hdl x d hd
    rcases hx with hx | rfl | hx | rfl
    · exact hs (signed_of_numeral h4) x hx
    · decide
    · exact hs h5 x hx
    · decide
  refine ⟨by simp [hc.1], ?_, ?_, ?_⟩
  · intro x hx
    by_cases hi : x ∈ i
    · obtain ⟨a1, a2, a3, a4, a5, a6, a7⟩ := hc.2 x hi
      exact ⟨a1, a3, a4, a5, a6, a7, hlt x hi⟩
    · have : x = ' ' := hsp x (by
        simp only [List.mem_append] at hx ⊢; tauto)
      subst this; decide
  · obtain ⟨b', base, digits, h1, h2, h3, h4, h5, rfl⟩ := hr
    simp only [List.count_append, List.count_cons_self]
    have : List.count '#' ['#'] = 1 := by simp
    omega
  · obtain ⟨b', base, digits, h1, h2, h3, h4, h5, rfl⟩ := hr
    obtain ⟨hb1, hb2⟩ := numeral_all h4
    obtain ⟨ds, g1, -, g3, -⟩ := h4
    have hlast : ∃ d, DigitOf (base.getLast hb1) d ∧ d < 10 := by
      have : ∀ (s : Str) (ds : List Nat), List.Forall₂ DigitOf s ds → (∀ d ∈ ds, d < 10) →
          ∀ c ∈ s, ∃ d, DigitOf c d ∧ d < 10 := by
        intro s ds h
        induction h with
        | nil => intro _ c hc; cases hc
        | @cons c' d' _ _ q1 _ ih =>
          intro hd c hc
          rcases List.mem_cons.1 hc with rfl | hc
          · exact ⟨d', q1, hd d' (by simp)⟩
          · exact ih (fun d hd' => hd d (by simp [hd'])) c hc
      exact this base ds g1 g3 _ (List.getLast_mem hb1)
    obtain ⟨d, hd, hd10⟩ := hlast
    refine ⟨a ++ base.dropLast, base.getLast hb1, digits ++ ['#'] ++ b, ?_, ?_⟩
    · have e := List.dropLast_append_getLast hb1
      have : a ++ base.dropLast ++ base.getLast hb1 :: '#' :: (digits ++ ['#'] ++ b)
          = a ++ ((base.dropLast ++ [base.getLast hb1]) ++ '#' :: (digits ++ ['#'])) ++ b := by simp
      rw [this, e]
    · unfold DigitOf at hd
      have e0 : ('0' : Char).toNat = 48 := rfl
      rcases hd with ⟨_, h⟩ | ⟨h, _⟩
      · rw [e0] at h
        have hle : ∀ a b : Char, a ≤ b ↔ a.toNat ≤ b.toNat := by
          intro a b; rfl
        rw [hle, hle, h]
        have e9 : ('9' : Char).toNat = 57 := rfl
        omega
      · omega

theorem forall₂_filter {ps : List Str} {ns : List Int} (h : List.Forall₂ PaddedRadix ps ns) :
    List.Forall₂ RadixText (ps.map (·.filter (· ≠ ' '))) ns := by
  induction h with
  | nil => exact .nil
  | cons h1 _ ih => exact .cons (padded_filter h1) ih

/-- **C04.** A parenthesised (or braced) list of radix integers, with any spacing, is read as the
tuple (or set) of the integers they denote, in order. (`literal_eval` rejects such a text.) -/
theorem C04_radix_collection (litEval : Str → Except PyErr Val) (pieces : List Str) (ns : List Int)
    (o c : Char) (hoc : (o = '(' ∧ c = ')') ∨ (o = '{' ∧ c = '}')) (hne : pieces ≠ [])
    (hval : List.Forall₂ PaddedRadix pieces ns)
    (hlit : litEval (o :: (join [','] pieces ++ [c])) = .error .syntaxError ∨
      litEval (o :: (join [','] pieces ++ [c])) = .error .valueError) :
    ∃ v, literalizePvl litEval (o :: (join [','] pieces ++ [c])) = .ok v ∧
      v = (if o = '{' then Val.set else Val.tuple) (ns.map .int) := by
  have hmem : ∀ p ∈ pieces, ∃ n, PaddedRadix p n := by
    clear hlit hne
    induction hval with
    | nil => simp
    | @cons p n _ _ h1 _ ih =>
      intro q hq
      rcases List.mem_cons.1 hq with rfl | hq
      · exact ⟨n, h1⟩
      · exact ih q hq
  have hjc : ∀ x ∈ join [','] pieces, x ≠ '(' ∧ x ≠ ')' ∧ x ≠ '{' ∧ x ≠ '}' ∧ x ≠ '\n' ∧ x ≠ '<' := by
    intro x hx
    rcases join_mem hx with rfl | ⟨p, hp, hx⟩
    · decide
    · obtain ⟨n, hn⟩ := hmem p hp
      exact ((padded_chars hn).2.1 x hx).2
  obtain ⟨p, ps, rfl⟩ := List.exists_cons_of_ne_nil hne
  obtain ⟨n0, hn0⟩ := hmem p (by simp)
  obtain ⟨q1, q2, q3, a, d, rest, q4, q5⟩ := padded_chars hn0
  have hjoin : ∃ t, join [','] (p :: ps) = p ++ t := by
    cases ps with
    | nil => exact ⟨[], by simp [join]⟩
    | cons q ps => exact ⟨',' :: join [','] (q :: ps), by simp [join]⟩
  obtain ⟨t, ht⟩ := hjoin
  set body := join [','] (p :: ps) with hbody
  have hbne : body ≠ [] := by rw [ht]; simp [q1]
  set obj := o :: (body ++ [c]) with hobj
  have hoset : o ∈ ['{', '}', '(', ')'] ∧ c ∈ ['{', '}', '(', ')'] := by
    rcases hoc with ⟨rfl, rfl⟩ | ⟨rfl, rfl⟩ <;> decide
  have hinner : stripChars ['{', '}', '(', ')'] obj = body := by
    rw [hobj]
    have hnot : ∀ x ∈ body, x ∉ ['{', '}', '(', ')'] := by
      intro x hx
      obtain ⟨h1, h2, h3, h4, _⟩ := hjc x hx
      simp [h1, h2, h3, h4]
    exact stripChars_wrap (pre := [o]) (post := [c]) (by simpa using hoset.1) (by simpa using hoset.2)
      (fun x hx => hnot x (List.mem_of_mem_head? hx)) (fun x hx => hnot x (List.mem_of_mem_getLast? hx)) hbne
  have hahead : radixAhead obj = true := by
    rw [hobj, ht, q4]
    have hon : '\n' ≠ o := by rcases hoc with ⟨rfl, rfl⟩ | ⟨rfl, rfl⟩ <;> decide
    have := radixAhead_of (o :: a) (rest ++ t ++ [c]) d (by
      simp only [List.mem_cons, not_or]
      refine ⟨hon, fun h => ?_⟩
      exact (q2 '\n' (by rw [q4]; simp [h])).2.2.2.2.2.1 rfl) q5
    simpa using this
  have hall : parseAll (splitOn ',' (body.filter (· ≠ ' '))) = .ok (ns.map .int) := by
    rw [hbody, filter_join ',' (by decide), splitOn_join]
    · apply parseAll_ok
      exact forall₂_filter hval
    · simp
    · intro l hl
      simp only [List.mem_map] at hl
      obtain ⟨p', hp', rfl⟩ := hl
      obtain ⟨n, hn⟩ := hmem p' hp'
      intro h
      exact ((padded_chars hn).2.1 ',' (List.mem_of_mem_filter h)).1 rfl
  have hcoll : parseUnusualCollection obj = (if o = '{' then Val.set else Val.tuple) (ns.map .int) := by
    unfold parseUnusualCollection
    simp only [hinner, hahead, if_true, hall]
    rcases hoc with ⟨rfl, rfl⟩ | ⟨rfl, rfl⟩
    · rw [if_neg (by rw [hobj]; simp [startsWith, List.isPrefixOf]), if_neg (by decide)]
    · rw [if_pos (by rw [hobj]; simp [startsWith, List.isPrefixOf]), if_pos rfl]
  have hfb : ∀ f, literalFallback f obj = .ok (parseUnusualCollection obj) := by
    intro f
    unfold literalFallback
    have hlt : ¬ ('<' ∈ obj ∧ '>' ∈ obj) := by
      rintro ⟨h, -⟩
      rw [hobj] at h
      simp only [List.mem_cons, List.mem_append, List.not_mem_nil, or_false] at h
      rcases h with h | h | h
      · rcases hoc with ⟨rfl, rfl⟩ | ⟨rfl, rfl⟩ <;> cases h
      · exact (hjc _ h).2.2.2.2.2 rfl
      · rcases hoc with ⟨rfl, rfl⟩ | ⟨rfl, rfl⟩ <;> cases h
    rw [if_neg hlt]
    rw [hobj]
    simp only
    rw [if_pos (by rcases hoc with ⟨rfl, rfl⟩ | ⟨rfl, rfl⟩ <;> simp)]
  have hrad : parseNonBase10 obj = .error .syntaxError := by
    have : obj = (o :: body) ++ [c] := by simp [hobj]
    rw [this]
    apply parseNonBase10_hashes
    rw [List.count_cons, ht, List.count_append]
    omega
  refine ⟨_, ?_, hcoll⟩
  unfold literalizePvl literalize
  by_cases hg : (!startsWith obj c!"\"" && decide ('#' ∈ (obj.drop 1).take 2)) = true
  · simp only [hg, if_true, hrad, hfb]
  · rw [Bool.not_eq_true] at hg
    simp only [hg, Bool.false_eq_true, if_false]
    rcases hlit with h | h <;> simp only [h, hfb]

/-! ### quantities -/

theorem takeWhile_stop {p : Char → Bool} {a b : Str} (ha : ∀ c ∈ a, p c = true)
    (hb : ∀ c, b.head? = some c → p c = false) : (a ++ b).takeWhile p = a ∧ (a ++ b).dropWhile p = b := by
  induction a with
  | nil =>
    cases b with
    | nil => simp
    | cons c b => simp [hb c rfl]
  | cons c a ih =>
    have := ih (fun x hx => ha x (by simp [hx]))
    simp [ha c (by simp), this]

theorem findQuantityValue_skip (pre s : Str) (h : ∀ c ∈ pre, c = ' ') :
    findQuantityValue (pre ++ s) = findQuantityValue s := by
  induction pre with
  | nil => rfl
  | cons c pre ih =>
    obtain rfl := h c (by simp)
    rw [List.cons_append, findQuantityValue, if_neg (by decide), if_neg, if_neg, if_neg]
    · exact ih (fun x hx => h x (by simp [hx]))
    all_goals simp [startsWith, List.isPrefixOf]

theorem numChar_iff (c : Char) : isNumChar c = true ↔ ('0' ≤ c ∧ c ≤ '9') ∨ c = '.' ∨ c = '-' := by
  simp [isNumChar, or_assoc]

theorem exponent_ok {e : Char} {ds rest : Str} (he : e = 'e' ∨ e = 'E') (hne : ds ≠ [])
    (hds : ∀ c ∈ ds, '0' ≤ c ∧ c ≤ '9') (hr : ∀ c, rest.head? = some c → ¬ ('0' ≤ c ∧ c ≤ '9')) :
    exponent (e :: (ds ++ rest)) = e :: ds ∧ exponent (e :: '-' :: (ds ++ rest)) = e :: '-' :: ds := by
  have htw : (ds ++ rest).takeWhile (fun c => '0' ≤ c && c ≤ '9') = ds :=
    (takeWhile_stop (by simpa using hds) (by intro c hc; simpa using hr c hc)).1
  constructor
  · unfold exponent
    simp only
    rw [if_pos he]
    split
    · rename_i r hr'
      obtain ⟨c, ds', rfl⟩ := List.exists_cons_of_ne_nil hne
      rw [List.cons_append] at hr'
      injection hr' with h1 h2
      subst h1
      exact absurd (hds '-' (by simp)) (by decide)
    · simp [htw, hne]
  · unfold exponent
    simp only
    rw [if_pos he, htw]
    simp [hne]

theorem exponent_none {rest : Str} (h : ∀ c, rest.head? = some c → c = ' ' ∨ c = '<') :
    exponent rest = [] := by
  cases rest with
  | nil => rfl
  | cons c r =>
    unfold exponent
    simp only
    rw [if_neg]
    rcases h c rfl with rfl | rfl <;> decide

theorem findQuantityValue_ok {v rest : Str} (hv : NumText v)
    (hr : ∀ c, rest.head? = some c → c = ' ' ∨ c = '<') :
    findQuantityValue (v ++ rest) = some v := by
  obtain ⟨w, ex, rfl, hw, hwc, hex⟩ := hv
  have hnum : ∀ c ∈ w, isNumChar c = true := fun c hc => (numChar_iff c).2 (hwc c hc)
  have hstop : ∀ c, (ex ++ rest).head? = some c → isNumChar c = false := by
    intro c hc
    rcases hex with rfl | ⟨e, ds, he, -, -, rfl | rfl⟩
    · rcases hr c hc with rfl | rfl <;> decide
    · simp at hc; subst hc; rcases he with rfl | rfl <;> decide
    · simp at hc; subst hc; rcases he with rfl | rfl <;> decide
  obtain ⟨t1, t2⟩ := takeWhile_stop hnum hstop
  have hexp : exponent (ex ++ rest) = ex := by
    have hr' : ∀ c, rest.head? = some c → ¬ ('0' ≤ c ∧ c ≤ '9') := by
      intro c hc; rcases hr c hc with rfl | rfl <;> decide
    rcases hex with rfl | ⟨e, ds, he, hne, hds, rfl | rfl⟩
    · exact exponent_none hr
    · exact (exponent_ok he hne hds hr').1
    · exact (exponent_ok he hne hds hr').2
  obtain ⟨c, w', rfl⟩ := List.exists_cons_of_ne_nil hw
  rw [List.append_assoc]
  rw [List.cons_append, findQuantityValue, if_pos (hnum c (by simp)), ← List.cons_append, t1, t2, hexp]

theorem findQuantityUnits_ok {a u post : Str} (ha : '<' ∉ a) (hu : '\n' ∉ u) (hp : '>' ∉ post) :
    findQuantityUnits (a ++ '<' :: (u ++ '>' :: post)) = some u := by
  have h1 : greedyToGt post = none := by
    induction post with
    | nil => rfl
    | cons c post ih =>
      simp only [List.mem_cons, not_or] at hp
      rw [greedyToGt, ih hp.2, if_neg (Ne.symm hp.1)]
      simp
  have h2 : greedyToGt (u ++ '>' :: post) = some u := by
    induction u with
    | nil => rw [List.nil_append, greedyToGt, h1]; simp
    | cons c u ih =>
      simp only [List.mem_cons, not_or] at hu
      rw [List.cons_append, greedyToGt, if_neg (Ne.symm hu.1), ih hu.2]
  induction a with
  | nil => rw [List.nil_append, findQuantityUnits, if_pos rfl, h2]
  | cons c a ih =>
    simp only [List.mem_cons, not_or] at ha
    rw [List.cons_append, findQuantityUnits, if_neg (Ne.symm ha.1), ih ha.2]

theorem numText_no_lt {v : Str} (h : NumText v) : '<' ∉ v := by
  obtain ⟨w, ex, rfl, -, hw, hex⟩ := h
  rw [List.mem_append, not_or]
  constructor
  · intro h; have := hw _ h; revert this; decide
  · rcases hex with rfl | ⟨e, ds, he, -, hds, rfl | rfl⟩
    · simp
    · intro h
      rcases List.mem_cons.1 h with h | h
      · subst h; rcases he with he | he <;> cases he
      · have := hds _ h; revert this; decide
    · intro h
      rcases List.mem_cons.1 h with h | h
      · subst h; rcases he with he | he <;> cases he
      · rcases List.mem_cons.1 h with h | h
        · cases h
        · have := hds _ h; revert this; decide

theorem quantity_find {s v u : Str} (h : QuantityText s v u) :
    findQuantityValue s = some v ∧ findQuantityUnits s = some u ∧ '<' ∈ s ∧ '>' ∈ s := by
  obtain ⟨pre, mid, post, rfl, hv, hsp, hu⟩ := h
  have h1 : ∀ c ∈ pre, c = ' ' := fun c hc => hsp c (by simp [hc])
  have h2 : ∀ c ∈ mid, c = ' ' := fun c hc => hsp c (by simp [hc])
  have h3 : ∀ c ∈ post, c = ' ' := fun c hc => hsp c (by simp [hc])
  refine ⟨?_, ?_, by simp, by simp⟩
  · rw [show pre ++ v ++ mid ++ '<' :: (u ++ '>' :: post) =
      pre ++ (v ++ (mid ++ '<' :: (u ++ '>' :: post))) by simp]
    rw [findQuantityValue_skip _ _ h1]
    apply findQuantityValue_ok hv
    intro c hc
    cases mid with
    | nil => simp at hc; exact .inr hc.symm
    | cons a mid => simp at hc; subst hc; exact .inl (h2 _ (by simp))
  · apply findQuantityUnits_ok _ hu (fun h => by have := h3 _ h; cases this)
    simp only [List.mem_append, not_or]
    refine ⟨⟨?_, numText_no_lt hv⟩, ?_⟩
    · intro h; have := h1 _ h; cases this
    · intro h; have := h2 _ h; cases this

/-- How one comma-separated part of a value is read: a quantity as value and units (each interpreted
like any label value), anything without both angle brackets like any label value. -/
inductive Spec.PartVal (litEval : Str → Except PyErr Val) : Str → Val → Prop
  | quantity {s v u : Str} {a b : Val} : QuantityText s v u → literalizePvl litEval v = .ok a →
      literalizePvl litEval u = .ok b → PartVal litEval s (.quantity a b)
  | plain {s : Str} {a : Val} : ¬ ('<' ∈ s ∧ '>' ∈ s) → literalizePvl litEval s = .ok a →
      PartVal litEval s a

/-- **C35.** A value made of comma-separated parts, at least one of them a quantity `number <units>`,
with or without surrounding parentheses, is read part by part: quantities become value-and-units
pairs, the other parts are interpreted as usual, in order. A single part is not wrapped in a tuple.
(`literal_eval` rejects such a text.) -/
theorem C35_quantities (litEval : Str → Except PyErr Val) (parts : List Str) (vals : List Val)
    (pre post : Str) (hpre : ∀ c ∈ pre, c = '(') (hpost : ∀ c ∈ post, c = ')')
    (hvals : List.Forall₂ (PartVal litEval) parts vals)
    (hcomma : ∀ p ∈ parts, ',' ∉ p)
    (hends : ∀ c, ((join [','] parts).head? = some c ∨ (join [','] parts).getLast? = some c) →
      c ≠ '(' ∧ c ≠ ')')
    (hquant : ∃ p ∈ parts, ∃ v u, QuantityText p v u)
    (hhash : '#' ∉ pre ++ join [','] parts ++ post)
    (hlit : litEval (pre ++ join [','] parts ++ post) = .error .syntaxError ∨
      litEval (pre ++ join [','] parts ++ post) = .error .valueError) :
    literalizePvl litEval (pre ++ join [','] parts ++ post) =
      .ok (match vals with | [v] => v | vs => .tuple vs) := by
  set obj := pre ++ join [','] parts ++ post with hobj
  obtain ⟨p0, hp0, v0, u0, hq0⟩ := hquant
  have hjm : ∀ x ∈ p0, x ∈ join [','] parts := by
    intro x hx
    clear * - hp0 hx
    induction parts with
    | nil => cases hp0
    | cons p ps ih =>
      cases ps with
      | nil => simp at hp0; subst hp0; simpa [join] using hx
      | cons q ps =>
        rw [join]
        · rcases List.mem_cons.1 hp0 with rfl | h
          · simp [hx]
          · simp [ih h]
        · simp
  obtain ⟨-, -, hlt, hgt⟩ := quantity_find hq0
  have hbr : '<' ∈ obj ∧ '>' ∈ obj := ⟨by simp [hobj, hjm _ hlt], by simp [hobj, hjm _ hgt]⟩
  have hjne : join [','] parts ≠ [] := List.ne_nil_of_mem (hjm _ hlt)
  have hstrip : stripChars ['(', ')'] obj = join [','] parts :=
    stripChars_wrap (fun c hc => by simp [hpre c hc]) (fun c hc => by simp [hpost c hc])
      (fun c hc => by have := hends c (.inl hc); simp [this])
      (fun c hc => by have := hends c (.inr hc); simp [this]) hjne
  have hsplit : splitOn ',' (join [','] parts) = parts :=
    splitOn_join ',' parts (by rintro rfl; cases hp0) hcomma
  have hsub : ∀ p ∈ parts, List.Sublist p obj := by
    intro p hp
    have h1 := splitOn_sublist ',' (join [','] parts) p (by rw [hsplit]; exact hp)
    refine h1.trans ?_
    rw [hobj]
    exact (List.sublist_append_right _ _).trans (List.sublist_append_left _ _)
  have hmap : ∀ (l : List Str) (vs : List Val), List.Forall₂ (PartVal litEval) l vs →
      (∀ p ∈ l, List.Sublist p obj) →
      mapErr (fun x => if '<' ∈ x ∧ '>' ∈ x then quantityObject (literalize litEval obj.length) x
        else literalize litEval obj.length x) l = .ok vs := by
    intro l vs h
    induction h with
    | nil => intro _; rfl
    | @cons p v l vs h1 _ ih =>
      intro hlen
      have ih' := ih (fun q hq => hlen q (by simp [hq]))
      have hps := hlen p (by simp)
      have hpl := hps.length_le
      rw [mapErr]
      have : (if '<' ∈ p ∧ '>' ∈ p then quantityObject (literalize litEval obj.length) p
        else literalize litEval obj.length p) = .ok v := by
        cases h1 with
        | @quantity w u a b hq ha hb =>
          obtain ⟨f1, f2, f3, f4⟩ := quantity_find hq
          rw [if_pos ⟨f3, f4⟩]
          have l1 := sublist_lt (findQuantityValue_sub _ _ f1).1 '<' f3 (findQuantityValue_sub _ _ f1).2
          have l2 := findQuantityUnits_lt _ _ f2
          have e1 : literalize litEval obj.length w = .ok a := by
            rw [← ha]; exact literalize_fuel _ _ _ _ (by omega) (by omega)
          have e2 : literalize litEval obj.length u = .ok b := by
            rw [← hb]; exact literalize_fuel _ _ _ _ (by omega) (by omega)
          simp only [quantityObject, f1, f2, e1, e2]
        | plain hn ha =>
          rw [if_neg hn, ← ha]
          refine literalize_fuel _ _ _ _ ?_ (by omega)
          by_cases hh : '<' ∈ p
          · exact sublist_lt hps '>' hbr.2 (fun h2 => hn ⟨hh, h2⟩)
          · exact sublist_lt hps '<' hbr.1 hh
      rw [this, ih']
  have hguard : ('#' ∈ (obj.drop 1).take 2) = False := by
    apply eq_false
    intro h
    exact hhash (List.mem_of_mem_drop (List.mem_of_mem_take h))
  have hfb : literalFallback (literalize litEval obj.length) obj =
      .ok (match vals with | [v] => v | vs => .tuple vs) := by
    unfold literalFallback
    rw [if_pos hbr, quantityStatement, hstrip, hsplit,
      hmap parts vals hvals hsub]
    cases vals with
    | nil => rfl
    | cons v vs => cases vs <;> rfl
  rw [literalizePvl, literalize]
  simp only [hguard, decide_false, Bool.and_false]
  rcases hlit with h | h <;> simp [h, hfb]

/-- The hypotheses of `C35_quantities` are met: a pointer to a byte offset in another file. -/
example (litEval : Str → Except PyErr Val)
    (h1 : litEval c!"\"A.DAT\"" = .ok (.str c!"A.DAT")) (h2 : litEval c!"1000" = .ok (.int 1000))
    (h3 : litEval c!"BYTES" = .error .valueError)
    (h4 : litEval c!"(\"A.DAT\",1000 <BYTES>)" = .error .syntaxError) :
    literalizePvl litEval c!"(\"A.DAT\",1000 <BYTES>)" =
      .ok (.tuple [.str c!"A.DAT", .quantity (.int 1000) (.str c!"BYTES")]) := by
  have e1 : literalizePvl litEval c!"\"A.DAT\"" = .ok (.str c!"A.DAT") := by
    simp [literalizePvl, literalize, h1, startsWith]
  have e2 : literalizePvl litEval c!"1000" = .ok (.int 1000) := by
    simp [literalizePvl, literalize, h2, startsWith]
  have e3 : literalizePvl litEval c!"BYTES" = .ok (.str c!"BYTES") := by
    simp [literalizePvl, literalize, h3, startsWith, literalFallback]
  have hq : QuantityText c!"1000 <BYTES>" c!"1000" c!"BYTES" :=
    ⟨[], [' '], [], rfl, ⟨c!"1000", [], rfl, by decide, by decide, .inl rfl⟩, by decide, by decide⟩
  exact C35_quantities litEval [c!"\"A.DAT\"", c!"1000 <BYTES>"] _ ['('] [')'] (by decide) (by decide)
    (.cons (.plain (by decide) e1) (.cons (.quantity hq e2 e3) .nil)) (by decide)
    (by intro c hc; rcases hc with hc | hc <;> (simp [join] at hc; subst hc; decide)) 
    ⟨_, by simp, _, _, hq⟩ (by decide) (.inl h4)

end Verif.Literal
