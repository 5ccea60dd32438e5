/-
C88, C89: ARRAY objects that are text.
-/
import Verif.Lemmas.AsciiArray
import Verif.Props.ImageFile
import Mathlib.Tactic.NormNum

namespace Verif.AsciiArray
open Verif.Py Verif.Datatypes Verif.Datatypes.Spec Verif.Image Verif.AsciiArray.Spec Verif.ImageFile.Spec Verif.ImageFile
open Verif.Float

variable (Rd : Rounding double) (Rs : Rounding single) (repr : Option ℚ → Str)

theorem reshape_list {α : Type} (l : List α) (sh : List Nat) (h : l.length = prod sh) :
    (Arr.ofList l).reshape sh = .ok ⟨sh, fun idx => l[ravel sh idx]?⟩ := by
  have := reshape_ofList l id sh h
  have hid : (Arr.ofList l).map id = Arr.ofList l := by unfold Arr.map; simp
  rw [hid] at this
  rw [this]; simp

theorem reshape_bad {α : Type} (l : List α) (sh : List Nat) (h : l.length ≠ prod sh) :
    (Arr.ofList l).reshape sh = .error .valueError := by
  unfold Arr.reshape
  rw [if_neg (by simpa [Arr.ofList, prod] using h)]

theorem shaped_plain (b : Block) (xs : List (Option ℚ)) (hd : b.dataType = none) (h : xs.length = prod b.axisItems) :
    shaped Rd Rs repr b xs = .ok ⟨b.axisItems, fun idx => (xs.map Elem.real)[ravel b.axisItems idx]?⟩ := by
  unfold shaped
  rw [reshape_list xs _ h]
  simp only [hd]
  exact reshape_list _ _ (by rw [List.length_map]; exact h)

theorem shaped_bad (b : Block) (xs : List (Option ℚ)) (h : xs.length ≠ prod b.axisItems) :
    shaped Rd Rs repr b xs = .error .valueError := by
  unfold shaped
  rw [reshape_bad xs _ h]

theorem shaped_typed (b : Block) (xs : List (Option ℚ)) (t : Str) (n : Nat) (d : Dtype) (es : List Elem)
    (hd : b.dataType = some (t, n)) (ht : Means (underscored t) n d) (h : xs.length = prod b.axisItems)
    (hes : xs.mapM (astype Rd Rs repr d) = .ok es) (hl : es.length = xs.length) :
    shaped Rd Rs repr b xs = .ok ⟨b.axisItems, fun idx => es[ravel b.axisItems idx]?⟩ := by
  obtain ⟨code, h1, h2, -⟩ := C10_types_mean_what_they_say t n d ht
  unfold shaped
  rw [reshape_list xs _ h]
  simp only [hd, h1, h2, hes]
  exact reshape_list _ _ (by rw [hl]; exact h)

theorem readText_numbers (lead : Str) (ns : List Numeral) (seps : List Str) (b : Block) (start : Int)
    (hl : seps.length = ns.length) (hlay : Laid lead (numbers ns seps)) :
    readText Rd Rs repr (layout lead (numbers ns seps)) b start =
      shaped Rd Rs repr b (ns.map (fun n => pyFloat Rd n.text)) := by
  unfold readText
  rw [findall_numbers lead ns seps hl hlay, List.map_map]
  rfl

/-- **C88 (values).** A file holds as many numbers as AXIS_ITEMS asks for, in plain notation (a sign or none, digits, a point
with digits or none), with blanks, line ends or commas between them, and nothing else. The ARRAY has the shape AXIS_ITEMS, and
element `[i][j]...` is the number at its place, the last index varying fastest: rounded correctly to double precision,
infinite where it is beyond the largest double. -/
theorem C88_values (lead : Str) (ns : List Numeral) (seps : List Str) (b : Block) (start : Int) (bin : Except PyErr (Arr Elem))
    (hi : b.interchange ≠ some c!"BINARY") (hd : b.dataType = none)
    (hl : seps.length = ns.length) (hlay : Laid lead (numbers ns seps)) (hn : ns.length = prod b.axisItems) :
    ∃ A, readArray Rd Rs repr (layout lead (numbers ns seps)) bin b start = .ok A ∧ A.shape = b.axisItems ∧
      ∀ ix, Within b.axisItems ix → ∃ n, ns[lastFastest b.axisItems ix]? = some n ∧
        (|n.value| < limit double → A.get ix = some (.real (some (Rd.fl n.value)))) ∧
        (limit double ≤ |n.value| → A.get ix = some (.real none)) := by
  refine ⟨⟨b.axisItems, fun idx => ((ns.map (fun n => pyFloat Rd n.text)).map Elem.real)[ravel b.axisItems idx]?⟩, ?_, rfl, ?_⟩
  · unfold readArray
    rw [if_neg hi, readText_numbers _ _ _ _ _ _ _ _ hl hlay]
    exact shaped_plain Rd Rs repr b _ hd (by rw [List.length_map]; exact hn)
  · intro ix hix
    have hlt := ravel_lt b.axisItems ix hix
    rw [← hn] at hlt
    refine ⟨ns[ravel b.axisItems ix], ?_, ?_, ?_⟩
    · rw [← ravel_last _ _ hix.length_eq, List.getElem?_eq_getElem hlt]
    · intro hv
      simp only [List.map_map, List.getElem?_map, List.getElem?_eq_getElem hlt, Option.map_some, Function.comp, pyFloat,
        exactValue_text]
      rw [if_pos hv]
    · intro hv
      simp only [List.map_map, List.getElem?_map, List.getElem?_eq_getElem hlt, Option.map_some, Function.comp, pyFloat,
        exactValue_text]
      rw [if_neg (not_lt.mpr hv)]

/-- **C88 (exactness).** Whole numbers below 2^53 in size, and all other numbers that are doubles, are shown exactly. -/
theorem C88_exact (lead : Str) (ns : List Numeral) (seps : List Str) (b : Block) (start : Int) (bin : Except PyErr (Arr Elem))
    (hi : b.interchange ≠ some c!"BINARY") (hd : b.dataType = none)
    (hl : seps.length = ns.length) (hlay : Laid lead (numbers ns seps)) (hn : ns.length = prod b.axisItems)
    (hex : ∀ n ∈ ns, (∃ z : Int, |z| < 2 ^ 53 ∧ n.value = z) ∨ (Rep double n.value ∧ |n.value| < limit double)) :
    ∃ A, readArray Rd Rs repr (layout lead (numbers ns seps)) bin b start = .ok A ∧
      ∀ ix, Within b.axisItems ix → ∃ n, ns[lastFastest b.axisItems ix]? = some n ∧ A.get ix = some (.real (some n.value)) := by
  obtain ⟨A, h1, -, h2⟩ := C88_values Rd Rs repr lead ns seps b start bin hi hd hl hlay hn
  refine ⟨A, h1, fun ix hix => ?_⟩
  obtain ⟨n, hn1, hn2, -⟩ := h2 ix hix
  refine ⟨n, hn1, ?_⟩
  have hr : Rep double n.value ∧ |n.value| < limit double := by
    rcases hex n (List.mem_of_getElem? hn1) with ⟨z, hz, hv⟩ | h
    · refine ⟨⟨z, 0, by simpa [double] using hz, by simp [double], by simp [double], by simp [hv]⟩, ?_⟩
      rw [hv]
      have h53 : |(z : ℚ)| < 2 ^ 53 := by exact_mod_cast hz
      refine lt_of_lt_of_le h53 ?_
      have h1 : (1 : ℚ) ≤ 2 ^ (971 : Nat) := one_le_pow₀ (by norm_num)
      have h2 : (2 : ℚ) ^ (53 : Nat) ≤ (2 ^ 53 - 1 / 2) * 2 ^ (1 : Nat) := by norm_num
      have h3 : (2 : ℚ) ^ (1 : Nat) ≤ 2 ^ (971 : Nat) := pow_le_pow_right₀ (by norm_num) (by norm_num)
      have h4 : ((2 : ℚ) ^ 53 - 1 / 2) * 2 ^ (1 : Nat) ≤ (2 ^ 53 - 1 / 2) * 2 ^ (971 : Nat) :=
        mul_le_mul_of_nonneg_left h3 (by norm_num)
      have he : limit double = (2 ^ 53 - 1 / 2) * 2 ^ (971 : Nat) := by
        unfold limit double
        simp only
        rw [← zpow_natCast (2 : ℚ) 971]; rfl
      rw [he]
      exact le_trans h2 h4
    · exact h
  rw [hn2 hr.2, Rd.exact _ hr.1]

/-- **C88 (count).** If the file holds more or fewer numbers than AXIS_ITEMS asks for, reading stops with an error: nothing is
made up, left out or shifted. -/
theorem C88_count (lead : Str) (ns : List Numeral) (seps : List Str) (b : Block) (start : Int) (bin : Except PyErr (Arr Elem))
    (hi : b.interchange ≠ some c!"BINARY") (hl : seps.length = ns.length) (hlay : Laid lead (numbers ns seps))
    (hn : ns.length ≠ prod b.axisItems) :
    readArray Rd Rs repr (layout lead (numbers ns seps)) bin b start = .error .valueError := by
  unfold readArray
  rw [if_neg hi, readText_numbers _ _ _ _ _ _ _ _ hl hlay]
  exact shaped_bad Rd Rs repr b _ (by rw [List.length_map]; exact hn)

theorem mapM_pure {α β : Type} (f : α → Except PyErr β) (g : α → β) (l : List α) (h : ∀ x ∈ l, f x = .ok (g x)) :
    l.mapM f = .ok (l.map g) := by
  induction l with
  | nil => rfl
  | cons x l ih =>
    rw [List.mapM_cons, h x (by simp), ih (fun y hy => h y (by simp [hy]))]
    rfl

/-- **C88 (DATA_TYPE).** With a DATA_TYPE of whole numbers or of 8-byte reals, and whole numbers below 2^53 in the file, the
elements are these numbers, in the type asked for. -/
theorem C88_typed (lead : Str) (ns : List Numeral) (seps : List Str) (b : Block) (start : Int) (bin : Except PyErr (Arr Elem))
    (t : Str) (w : Nat) (d : Dtype) (z : Numeral → Int)
    (hi : b.interchange ≠ some c!"BINARY") (hd : b.dataType = some (t, w)) (ht : Means (underscored t) w d)
    (hl : seps.length = ns.length) (hlay : Laid lead (numbers ns seps)) (hn : ns.length = prod b.axisItems)
    (hz : ∀ n ∈ ns, |z n| < 2 ^ 53 ∧ n.value = z n) :
    (d.kind = .int ∨ d.kind = .uint →
      ∃ A, readArray Rd Rs repr (layout lead (numbers ns seps)) bin b start = .ok A ∧ A.shape = b.axisItems ∧
        ∀ ix, Within b.axisItems ix → ∃ n, ns[lastFastest b.axisItems ix]? = some n ∧ A.get ix = some (.int (z n))) ∧
    (d.kind = .float → d.size = 8 →
      ∃ A, readArray Rd Rs repr (layout lead (numbers ns seps)) bin b start = .ok A ∧ A.shape = b.axisItems ∧
        ∀ ix, Within b.axisItems ix → ∃ n, ns[lastFastest b.axisItems ix]? = some n ∧
          A.get ix = some (.real (some (z n : ℚ)))) := by
  have hval : ∀ n ∈ ns, pyFloat Rd n.text = some (z n : ℚ) ∧ Rd.fl (z n : ℚ) = (z n : ℚ) := by
    intro n hmem
    obtain ⟨h1, h2⟩ := hz n hmem
    obtain ⟨A, hA, hB⟩ := C88_exact Rd Rs repr [] [n] [[]] ⟨none, [1], none⟩ 0 (.error .valueError) (by simp) rfl rfl
      ⟨by simp [Blank], by simp [numbers, Blank], by simp [numbers]⟩ rfl
      (by intro m hm; simp at hm; subst hm; exact Or.inl ⟨z m, h1, h2⟩)
    have h3 := hB [0] (by unfold Within; exact List.Forall₂.cons (by decide) List.Forall₂.nil)
    obtain ⟨m, hm1, hm2⟩ := h3
    have hmn : m = n := by
      have := List.mem_of_getElem? hm1
      simpa using this
    subst hmn
    unfold readArray at hA
    rw [if_neg (by simp), readText_numbers _ _ _ _ _ _ _ _ rfl
      ⟨by simp [Blank], by simp [numbers, Blank], by simp [numbers]⟩] at hA
    rw [shaped_plain Rd Rs repr ⟨none, [1], none⟩ _ rfl rfl] at hA
    simp only [Except.ok.injEq] at hA
    subst hA
    simp [ravel] at hm2
    have hr : Rep double (z m : ℚ) :=
      ⟨z m, 0, by simpa [double] using h1, by simp [double], by simp [double], by simp⟩
    exact ⟨by rw [hm2, h2], Rd.exact _ hr⟩
  have hlen : (ns.map (fun n => pyFloat Rd n.text)).length = prod b.axisItems := by rw [List.length_map]; exact hn
  have key : ∀ g : Numeral → Elem, (∀ n ∈ ns, astype Rd Rs repr d (pyFloat Rd n.text) = .ok (g n)) →
      ∃ A, readArray Rd Rs repr (layout lead (numbers ns seps)) bin b start = .ok A ∧ A.shape = b.axisItems ∧
        ∀ ix, Within b.axisItems ix → ∃ n, ns[lastFastest b.axisItems ix]? = some n ∧ A.get ix = some (g n) := by
    intro g hg
    refine ⟨⟨b.axisItems, fun idx => (ns.map g)[ravel b.axisItems idx]?⟩, ?_, rfl, ?_⟩
    · unfold readArray
      rw [if_neg hi, readText_numbers _ _ _ _ _ _ _ _ hl hlay]
      refine shaped_typed Rd Rs repr b _ t w d _ hd ht hlen ?_ (by simp)
      rw [List.mapM_map]
      exact mapM_pure _ g ns hg
    · intro ix hix
      have hlt := ravel_lt b.axisItems ix hix
      rw [← hn] at hlt
      refine ⟨ns[ravel b.axisItems ix], ?_, ?_⟩
      · rw [← ravel_last _ _ hix.length_eq, List.getElem?_eq_getElem hlt]
      · simp only [List.getElem?_map, List.getElem?_eq_getElem hlt, Option.map_some]
  have hfl : ∀ k : Int, (if (0 : ℚ) ≤ (k : ℚ) then (k : ℚ).floor else -(-(k : ℚ)).floor) = k := by
    intro k
    have hneg : -(k : ℚ) = ((-k : Int) : ℚ) := by push_cast; rfl
    rw [hneg]
    simp only [Rat.floor_intCast]
    split <;> omega
  refine ⟨fun hk => key (fun n => .int (z n)) ?_, fun hk hs => key (fun n => .real (some (z n : ℚ))) ?_⟩
  · intro n hmem
    rw [(hval n hmem).1]
    unfold astype
    rcases hk with hk | hk <;> rw [hk] <;> simp only [hfl]
  · intro n hmem
    rw [(hval n hmem).1]
    unfold astype
    rw [hk]
    simp only [hs, show ¬ (8 = 4) from by decide, if_false, Option.map_some, (hval n hmem).2]

/-- The way an ARRAY is read: as binary if INTERCHANGE_FORMAT is exactly BINARY, as text otherwise. -/
theorem C88_which_way (text : Str) (bin : Except PyErr (Arr Elem)) (b : Block) (start : Int) :
    (b.interchange = some c!"BINARY" → readArray Rd Rs repr text bin b start = bin) ∧
    (b.interchange ≠ some c!"BINARY" → ∀ bin', readArray Rd Rs repr text bin b start = readArray Rd Rs repr text bin' b start) := by
  constructor
  · intro h; unfold readArray; rw [if_pos h]
  · intro h bin'; unfold readArray; rw [if_neg h, if_neg h]

/-! ### limits -/

/-- **C89 (exponents).** An ARRAY of one or more numbers that are all written with exponents (`1.5E+03`: mantissa, a letter E,
D, e or d, exponent) cannot be read: each is taken for two numbers. -/
theorem C89_exponents (lead : Str) (ms : List (Numeral × Char × Numeral)) (seps : List Str) (b : Block) (start : Int)
    (bin : Except PyErr (Arr Elem)) (hi : b.interchange ≠ some c!"BINARY") (hl : seps.length = ms.length)
    (he : ∀ m ∈ ms, m.2.1 ∈ ['E', 'e', 'D', 'd'])
    (hlay : Laid lead ((ms.map (fun m => m.1.text ++ m.2.1 :: m.2.2.text)).zip seps))
    (hn : ms.length = prod b.axisItems) (hpos : ms ≠ []) :
    readArray Rd Rs repr (layout lead ((ms.map (fun m => m.1.text ++ m.2.1 :: m.2.2.text)).zip seps)) bin b start =
      .error .valueError := by
  have hstop : ∀ c ∈ ['E', 'e', 'D', 'd'], stop c := by
    intro c hc
    simp only [List.mem_cons, List.not_mem_nil, or_false] at hc
    rcases hc with rfl | rfl | rfl | rfl <;> exact ⟨by decide, by decide, by decide⟩
  have hcount : (findall (layout lead ((ms.map (fun m => m.1.text ++ m.2.1 :: m.2.2.text)).zip seps))).length = 2 * ms.length := by
    rw [findall_layout _ _ hlay]
    clear hlay hn hpos
    induction ms generalizing seps with
    | nil => rfl
    | cons m ms ih =>
      cases seps with
      | nil => simp at hl
      | cons s seps =>
        simp only [List.map_cons, List.zip_cons_cons, List.flatMap_cons, List.length_append, List.length_cons]
        rw [ih seps (by simpa using hl) (fun m hm => he m (by simp [hm])), findall_split _ _ _ (hstop _ (he m (by simp))),
          findall_numeral, findall_numeral]
        simp; omega
  unfold readArray readText
  rw [if_neg hi]
  refine shaped_bad Rd Rs repr b _ ?_
  rw [List.length_map, hcount, ← hn]
  have : 0 < ms.length := List.length_pos_iff.mpr hpos
  omega

/-- numbers without a digit before the point -/
def pointText (p : Option Bool × Fin 10 × List (Fin 10)) : Str := signText p.1 ++ '.' :: (p.2.1 :: p.2.2).map digitChar

theorem findall_point (p : Option Bool × Fin 10 × List (Fin 10)) :
    findall (pointText p) = [(⟨none, p.2.1, p.2.2, none⟩ : Numeral).text] := by
  obtain ⟨s, d, ds⟩ := p
  have hpt : token ('.' :: (d :: ds).map digitChar) = none := by
    simp only [token, show isSign '.' = false from by decide, Bool.false_eq_true, if_false]
    exact unsignedToken_none _ _ (by decide)
  have h0 : findall ('.' :: (d :: ds).map digitChar) = [(⟨none, d, ds, none⟩ : Numeral).text] := by
    rw [findall_skip _ _ hpt]
    have := findall_numeral ⟨none, d, ds, none⟩
    simpa [Numeral.text, signText, fracText] using this
  unfold pointText
  cases s with
  | none => exact h0
  | some x =>
    have hsg : ∀ c, isSign c = true → findall (c :: '.' :: (d :: ds).map digitChar) = [(⟨none, d, ds, none⟩ : Numeral).text] := by
      intro c hc
      rw [findall_skip _ _ ?_, h0]
      simp only [token, hc, if_true]
      rw [unsignedToken_none _ _ (by decide)]; rfl
    cases x
    · exact hsg '+' (by decide)
    · exact hsg '-' (by decide)

/-- **C89 (no digit before the point).** Numbers written without a digit before the decimal point (`.25`, `-.25`) are read, without
any error, as the whole number after the point: `.25` and `-.25` both as 25. -/
theorem C89_no_leading_digit (lead : Str) (ps : List (Option Bool × Fin 10 × List (Fin 10))) (seps : List Str) (b : Block)
    (start : Int) (bin : Except PyErr (Arr Elem)) (hi : b.interchange ≠ some c!"BINARY") (hd : b.dataType = none)
    (hl : seps.length = ps.length) (hlay : Laid lead ((ps.map pointText).zip seps)) (hn : ps.length = prod b.axisItems)
    (hsmall : ∀ p ∈ ps, number (p.2.1 :: p.2.2) < 2 ^ 53) :
    ∃ A, readArray Rd Rs repr (layout lead ((ps.map pointText).zip seps)) bin b start = .ok A ∧
      ∀ ix, Within b.axisItems ix → ∃ p, ps[lastFastest b.axisItems ix]? = some p ∧
        A.get ix = some (.real (some (number (p.2.1 :: p.2.2) : ℚ))) := by
  let ns : List Numeral := ps.map (fun p => ⟨none, p.2.1, p.2.2, none⟩)
  have hf : findall (layout lead ((ps.map pointText).zip seps)) = ns.map Numeral.text := by
    rw [findall_layout _ _ hlay]
    clear hlay hn hsmall
    show _ = (ps.map _).map _
    induction ps generalizing seps with
    | nil => rfl
    | cons p ps ih =>
      cases seps with
      | nil => simp at hl
      | cons s seps =>
        simp only [List.map_cons, List.zip_cons_cons, List.flatMap_cons]
        rw [ih seps (by simpa using hl), findall_point]; rfl
  -- the same numbers in a file of their own
  have hlay2 : Laid [] (numbers ns (List.replicate ns.length [' '])) := by
    have hz : ∀ p ∈ numbers ns (List.replicate ns.length [' ']), p.2 = [' '] := by
      intro p hp
      exact List.eq_of_mem_replicate (List.of_mem_zip hp).2
    refine ⟨by simp [Blank], ?_, ?_⟩
    · intro p hp; rw [hz p hp]; simp [Blank]
    · intro p hp; rw [hz p (List.dropLast_subset _ hp)]; simp
  have hval : ∀ p : Option Bool × Fin 10 × List (Fin 10),
      (⟨none, p.2.1, p.2.2, none⟩ : Numeral).value = (number (p.2.1 :: p.2.2) : ℚ) := by
    intro p; simp [Numeral.value, number]
  obtain ⟨A, h1, h2⟩ := C88_exact Rd Rs repr [] ns (List.replicate ns.length [' ']) b start bin hi hd (by simp) hlay2
    (by simp only [ns, List.length_map]; exact hn) (by
      intro n hmem
      obtain ⟨p, hp, rfl⟩ := List.mem_map.mp hmem
      refine Or.inl ⟨number (p.2.1 :: p.2.2), ?_, ?_⟩
      · have := hsmall p hp
        rw [abs_of_nonneg (by positivity)]
        exact_mod_cast this
      · rw [hval]; push_cast; rfl)
  have hsame : readArray Rd Rs repr (layout lead ((ps.map pointText).zip seps)) bin b start =
      readArray Rd Rs repr (layout [] (numbers ns (List.replicate ns.length [' ']))) bin b start := by
    unfold readArray readText
    rw [if_neg hi, if_neg hi, hf, findall_numbers [] ns _ (by simp) hlay2]
  refine ⟨A, by rw [hsame]; exact h1, fun ix hix => ?_⟩
  obtain ⟨n, hn1, hn2⟩ := h2 ix hix
  simp only [ns, List.getElem?_map, Option.map_eq_some_iff] at hn1
  obtain ⟨p, hp1, rfl⟩ := hn1
  exact ⟨p, hp1, by rw [hn2, hval]⟩

theorem findall_digit (s : Str) (h : ∃ c ∈ s, isDig c = true) : findall s ≠ [] := by
  have key : ∀ n (s : Str), s.length ≤ n → (∃ c ∈ s, isDig c = true) → findall s ≠ [] := by
    intro n
    induction n with
    | zero =>
      intro s hn hc
      obtain ⟨c, hc, -⟩ := hc
      have : s = [] := List.length_eq_zero_iff.mp (by omega)
      rw [this] at hc; simp at hc
    | succ n ih =>
      intro s hn hc
      cases s with
      | nil => obtain ⟨c, hc, -⟩ := hc; simp at hc
      | cons x s =>
        simp only [List.length_cons] at hn
        cases ht : token (x :: s) with
        | some p => rw [findall_token _ p.1 p.2 ht]; simp
        | none =>
          rw [findall_skip _ _ ht]
          refine ih s (by omega) ?_
          obtain ⟨c, hc, hd⟩ := hc
          rcases List.mem_cons.mp hc with rfl | hc
          · exfalso
            have hns : isSign c = false := by
              by_contra hs
              simp only [Bool.not_eq_false] at hs
              have : c = '+' ∨ c = '-' := by simpa [isSign] using hs
              rcases this with rfl | rfl <;> exact absurd hd (by decide)
            simp only [token, hns, Bool.false_eq_true, if_false] at ht
            unfold unsignedToken at ht
            rw [List.takeWhile_cons_of_pos hd] at ht
            simp only at ht
            revert ht
            split <;> simp
          · exact ⟨c, hc, hd⟩
  exact key s.length s (le_refl _) h

/-- **C89 (attached labels).** If other text with a digit in it comes first in the same file (as an attached label does), then an
ARRAY of as many numbers as AXIS_ITEMS asks for cannot be read, whatever start byte the label gives for it. -/
theorem C89_attached (label : Str) (ns : List Numeral) (seps : List Str) (b : Block) (start : Int) (bin : Except PyErr (Arr Elem))
    (hi : b.interchange ≠ some c!"BINARY") (hdig : ∃ c ∈ label, c ∈ ['0', '1', '2', '3', '4', '5', '6', '7', '8', '9'])
    (hl : seps.length = ns.length) (hlay : Laid [] (numbers ns seps)) (hn : ns.length = prod b.axisItems) :
    readArray Rd Rs repr (label ++ '\n' :: layout [] (numbers ns seps)) bin b start = .error .valueError := by
  have hd : ∃ c ∈ label, isDig c = true := by
    obtain ⟨c, hc, hm⟩ := hdig
    refine ⟨c, hc, ?_⟩
    simp only [List.mem_cons, List.not_mem_nil, or_false] at hm
    rcases hm with rfl | rfl | rfl | rfl | rfl | rfl | rfl | rfl | rfl | rfl <;> decide
  unfold readArray readText
  rw [if_neg hi]
  refine shaped_bad Rd Rs repr b _ ?_
  rw [findall_split _ _ _ (stop_blank '\n' (by decide)), findall_numbers _ _ _ hl hlay, List.length_map, List.length_append,
    List.length_map, hn]
  have : 0 < (findall label).length := List.length_pos_iff.mpr (findall_digit label hd)
  omega

theorem findall_no_digits (s : Str) (h : ∀ c ∈ s, isDig c = false) : findall s = [] := by
  induction s with
  | nil => rfl
  | cons c s ih =>
    rw [findall_skip c s ?_]
    · exact ih (fun x hx => h x (by simp [hx]))
    · simp only [token]
      split
      · cases s with
        | nil => rfl
        | cons x s => rw [unsignedToken_none x s (h x (by simp))]; rfl
      · exact unsignedToken_none c s (h c (by simp))

/-- **C89 (words).** Elements that are words are never shown: text without digits is an error for every shape with an element
in it. -/
theorem C89_words (text : Str) (b : Block) (start : Int) (bin : Except PyErr (Arr Elem))
    (hi : b.interchange ≠ some c!"BINARY") (hw : ∀ c ∈ text, c ∉ ['0', '1', '2', '3', '4', '5', '6', '7', '8', '9'])
    (hn : prod b.axisItems ≠ 0) :
    readArray Rd Rs repr text bin b start = .error .valueError := by
  have hd : ∀ c ∈ text, isDig c = false := by
    intro c hc
    by_contra hx
    refine hw c hc ?_
    have h1 : '0' ≤ c ∧ c ≤ '9' := by simpa [isDig] using hx
    have h2 : 48 ≤ c.toNat ∧ c.toNat ≤ 57 := h1
    have h3 : c = Char.ofNat c.toNat := (Char.ofNat_toNat c).symm
    obtain ⟨h4, h5⟩ := h2
    generalize c.toNat = k at h3 h4 h5
    subst h3
    interval_cases k <;> decide
  unfold readArray readText
  rw [if_neg hi, findall_no_digits text hd]
  exact shaped_bad Rd Rs repr b _ (by simpa using Ne.symm hn)

/-- **C89 (types of text).** With the DATA_TYPE ASCII_REAL, ASCII_INTEGER, CHARACTER, DATE or TIME the elements are not numbers
but texts: how numpy writes the number, cut off after BYTES characters. -/
theorem C89_text_types (lead : Str) (ns : List Numeral) (seps : List Str) (b : Block) (start : Int)
    (bin : Except PyErr (Arr Elem)) (t : Str) (w : Nat)
    (hi : b.interchange ≠ some c!"BINARY") (hd : b.dataType = some (t, w))
    (ht : underscored t ∈ [c!"ASCII_REAL", c!"ASCII_INTEGER", c!"DATE", c!"CHARACTER", c!"TIME"])
    (hl : seps.length = ns.length) (hlay : Laid lead (numbers ns seps)) (hn : ns.length = prod b.axisItems)
    (hbig : ∀ n ∈ ns, |n.value| < limit double) :
    ∃ A, readArray Rd Rs repr (layout lead (numbers ns seps)) bin b start = .ok A ∧
      ∀ ix, Within b.axisItems ix → ∃ n, ns[lastFastest b.axisItems ix]? = some n ∧
        A.get ix = some (.text ((repr (some (Rd.fl n.value))).take w)) := by
  refine ⟨⟨b.axisItems, fun idx => (ns.map (fun n => Elem.text ((repr (some (Rd.fl n.value))).take w)))[ravel b.axisItems idx]?⟩,
    ?_, ?_⟩
  · unfold readArray
    rw [if_neg hi, readText_numbers _ _ _ _ _ _ _ _ hl hlay]
    refine shaped_typed Rd Rs repr b _ t w _ _ hd (Means.text ht) (by rw [List.length_map]; exact hn) ?_ (by simp)
    rw [List.mapM_map]
    refine mapM_pure _ _ ns ?_
    intro n hmem
    simp only [Function.comp, astype, pyFloat, exactValue_text]
    rw [if_pos (hbig n hmem)]
  · intro ix hix
    have hlt := ravel_lt b.axisItems ix hix
    rw [← hn] at hlt
    refine ⟨ns[ravel b.axisItems ix], ?_, ?_⟩
    · rw [← ravel_last _ _ hix.length_eq, List.getElem?_eq_getElem hlt]
    · simp only [List.getElem?_map, List.getElem?_eq_getElem hlt, Option.map_some]

end Verif.AsciiArray
