/-
C26: expansion of table definitions; C27: unique names.
-/
import Verif.Spec.Format
import Mathlib.Data.List.Nodup
import Mathlib.Tactic.ByContra

namespace Verif.Format
open Verif.Py Verif.Format.Spec

/-! ### C26: expansion -/

theorem appendObj_eq (obj fields : List Fld) (reps : Option Nat) :
    appendObj obj fields reps = fields ++ (List.replicate (copies reps) obj).flatten := by
  cases reps with
  | none => simp [appendObj, copies]
  | some n =>
    simp only [appendObj, appendRepeated, copies]
    split
    · rw [Nat.max_eq_left (by omega)]
    · rw [Nat.max_eq_right (by omega)]; simp

/-- real fields only -/
def real (fs : List Fld) : List Fld := fs.filter (fun f => !f.placeholder)

theorem real_append (a b : List Fld) : real (a ++ b) = real a ++ real b := List.filter_append _ _

theorem real_flatten_replicate (n : Nat) (a : List Fld) :
    real (List.replicate n a).flatten = (List.replicate n (real a)).flatten := by
  induction n with
  | zero => rfl
  | succ n ih => simp only [List.replicate_succ, List.flatten_cons, real_append, ih]

mutual
theorem readEntry_real (info : Info) (d : Def) (st : St) (h : NoArray d) :
    real (readEntry info d st).fields = real st.fields ++ columnsOf info d := by
  cases d with
  | column n s b items ib io a =>
    simp only [readEntry, columnsOf, appendObj_eq, real_append, real_flatten_replicate]
    congr 1
    · split
      · simp [real, placeholderField]
      · rfl
    · simp only [real, List.filter, Bool.not_false]
      rw [List.flatten_replicate_singleton]
  | container n s b r cs =>
    have hc : NoArrays cs := h
    have ih := readEntries_real ⟨some n, r.getD 1, b⟩ cs {} hc
    simp only [readEntry, columnsOf, appendObj_eq, real_append, real_flatten_replicate, ih]
    congr 1
    · split
      · simp [real, placeholderField]
      · rfl
  | array n s b ax cs => exact absurd h (by simp [NoArray])
  | other => simp [readEntry, columnsOf]
theorem readEntries_real (info : Info) (ds : List Def) (st : St) (h : NoArrays ds) :
    real (readEntries info ds st).fields = real st.fields ++ allColumns info ds := by
  cases ds with
  | nil => simp [readEntries, allColumns]
  | cons d ds =>
    simp only [readEntries, allColumns]
    rw [readEntries_real info ds _ h.2, readEntry_real info d st h.1, List.append_assoc]
end

/-- **C26.** For every definition made of columns and arbitrarily nested containers: the fields read from
it (leaving out the placeholders pdr adds) are its columns in label order, with ITEMS and REPETITIONS
giving exactly that many consecutive copies (counts below 1 count as 1). -/
theorem C26_columns_in_order (name : Option Str) (reps bytes : Option Nat) (ds : List Def) (h : NoArrays ds) :
    (readFormatBlock name reps bytes ds).filter (fun f => !f.placeholder) =
      allColumns ⟨name, reps.getD 1, bytes⟩ ds := by
  have := readEntries_real ⟨name, reps.getD 1, bytes⟩ ds {} h
  simpa [readFormatBlock, real] using this

theorem flat_inner (info : Info) (cs : List Def) (st : St)
    (h : ∀ c ∈ cs, (∃ n s b i ib io a, c = .column n s b i ib io a) ∨ c = .other)
    (h1 : st.add = false) (h2 : st.needs = false) :
    (readEntries info cs st).fields = st.fields ++ allColumns info cs ∧
    (readEntries info cs st).add = false ∧ (readEntries info cs st).needs = false := by
  induction cs generalizing st with
  | nil => simp [readEntries, allColumns, h1, h2]
  | cons c cs ih =>
    have hc := h c (by simp)
    have hcs := fun c' hc' => h c' (List.mem_cons_of_mem _ hc')
    simp only [readEntries, allColumns]
    rcases hc with ⟨n, s, b, i, ib, io, a, rfl⟩ | rfl
    · have := ih (readEntry info (.column n s b i ib io a) st) hcs (by simp [readEntry, h1]) (by simp [readEntry, h2])
      obtain ⟨a1, a2, a3⟩ := this
      refine ⟨?_, a2, a3⟩
      rw [a1]
      simp only [readEntry, h1, appendObj_eq, columnsOf, List.flatten_replicate_singleton, List.append_assoc]
      rfl
    · have := ih (readEntry info .other st) hcs h1 h2
      simpa [readEntry, columnsOf] using this

/-- **C26 (flat tables).** Without containers inside containers there are no placeholders either: the
fields are exactly the columns. -/
theorem C26_flat_tables (name : Option Str) (reps bytes : Option Nat) (ds : List Def)
    (h : ∀ d ∈ ds, Flat d) :
    readFormatBlock name reps bytes ds = allColumns ⟨name, reps.getD 1, bytes⟩ ds := by
  have key : ∀ (info : Info) (ds : List Def) (st : St), (∀ d ∈ ds, Flat d) → st.add = false →
      (readEntries info ds st).fields = st.fields ++ allColumns info ds := by
    intro info ds
    induction ds with
    | nil => intro st _ _; simp [readEntries, allColumns]
    | cons d ds ih =>
      intro st hf h1
      have hd := hf d (by simp)
      have hds := fun d' hd' => hf d' (List.mem_cons_of_mem _ hd')
      simp only [readEntries, allColumns]
      cases d with
      | column n s b i ib io a =>
        rw [ih _ hds (by simp [readEntry, h1])]
        simp only [readEntry, h1, appendObj_eq, columnsOf, List.flatten_replicate_singleton, List.append_assoc]
        rfl
      | container n s b r cs =>
        obtain ⟨a1, a2, a3⟩ := flat_inner ⟨some n, r.getD 1, b⟩ cs {} hd rfl rfl
        rw [ih _ hds (by simp [readEntry, a3])]
        simp only [readEntry, a3, appendObj_eq, columnsOf, a1]
        simp
      | array n s b ax cs => exact absurd hd (by simp [Flat])
      | other =>
        have := ih st hds h1
        simpa [readEntry, columnsOf] using this
  have := key ⟨name, reps.getD 1, bytes⟩ ds {} h rfl
  simpa [readFormatBlock] using this

/-- a table with a three-item column and a container repeated twice -/
example : (readFormatBlock (some c!"T") none none
    [.column c!"A" 1 6 (some 3) (some 2) none {},
     .container c!"C" 7 (some 3) (some 2) [.column c!"X" 1 1 none none none {}, .column c!"Y" 2 2 none none none {}],
     .column c!"B" 13 4 none none none {}]).map (·.name) =
    [c!"A", c!"A", c!"A", c!"X", c!"Y", c!"X", c!"Y", c!"B"] := rfl

/-- **C44 (limit).** An ARRAY that follows a column with ITEMS is repeated as often as that column,
although it declares no repetition. -/
theorem C44_array_takes_previous_count (name : Option Str) (n an : Str) (s as : Int) (b k : Nat)
    (a : Attrs) (ib io ab ax : Option Nat) (cs : List Def) :
    (readFormatBlock name none none [.column n s b (some k) ib io a, .array an as ab ax cs]).length =
      max k 1 + 1 + max k 1 * (readEntries ⟨some an, 1, ab⟩ cs {}).fields.length := by
  simp [readFormatBlock, readEntries, readEntry, appendObj_eq, copies]
  omega

/-! #### format files -/

theorem expands_append {ε φ : Type} {isPtr : ε → Option φ} {load : φ → List ε} (a b out : List ε)
    (h : Expands isPtr load (a ++ b) out) :
    ∃ o1 o2, out = o1 ++ o2 ∧ Expands isPtr load a o1 ∧ Expands isPtr load b o2 := by
  induction a generalizing out with
  | nil => exact ⟨[], out, rfl, .nil, h⟩
  | cons e es ih =>
    cases h with
    | keep he h' =>
      obtain ⟨o1, o2, rfl, g1, g2⟩ := ih _ h'
      exact ⟨e :: o1, o2, rfl, .keep he g1, g2⟩
    | ptr he hm h' =>
      obtain ⟨o1, o2, rfl, g1, g2⟩ := ih _ h'
      exact ⟨_ ++ o1, o2, by simp, .ptr he hm g1, g2⟩

theorem expands_inject {ε φ : Type} {isPtr : ε → Option φ} {load : φ → List ε} (block out : List ε)
    (h : Expands isPtr load (inject isPtr load block) out) : Expands isPtr load block out := by
  induction block generalizing out with
  | nil => exact h
  | cons e es ih =>
    simp only [inject, List.flatMap_cons] at h
    cases he : isPtr e with
    | none =>
      rw [he] at h
      simp only [List.cons_append, List.nil_append] at h
      cases h with
      | keep _ h' => exact .keep he (ih _ h')
      | ptr he' _ _ => rw [he] at he'; cases he'
    | some f =>
      rw [he] at h
      obtain ⟨o1, o2, rfl, g1, g2⟩ := expands_append _ _ _ h
      exact .ptr he g1 (ih _ g2)

theorem expands_self {ε φ : Type} {isPtr : ε → Option φ} {load : φ → List ε} (block : List ε)
    (h : block.any (fun e => (isPtr e).isSome) = false) : Expands isPtr load block block := by
  induction block with
  | nil => exact .nil
  | cons e es ih =>
    simp only [List.any_cons, Bool.or_eq_false_iff] at h
    refine .keep ?_ (ih h.2)
    simpa using h.1

/-- **C26 (format files).** Whenever the expansion of format file references ends, its result has no
references left and is the original definition with every reference replaced, in place and to any depth,
by the expanded contents of the file it names. -/
theorem C26_format_files_in_place {ε φ : Type} (isPtr : ε → Option φ) (load : φ → List ε) (fuel : Nat)
    (block out : List ε) (h : injectAll isPtr load fuel block = some out) :
    Expands isPtr load block out ∧ ∀ e ∈ out, isPtr e = none := by
  have hnone : ∀ b : List ε, b.any (fun e => (isPtr e).isSome) = false → ∀ e ∈ b, isPtr e = none := by
    intro b hb e he
    have := (List.any_eq_false.1 hb) e he
    simpa using this
  induction fuel generalizing block with
  | zero =>
    simp only [injectAll] at h
    split at h
    · cases h
    · rename_i hb
      cases h
      exact ⟨expands_self _ (by simpa using hb), hnone _ (by simpa using hb)⟩
  | succ n ih =>
    simp only [injectAll] at h
    split at h
    · obtain ⟨g1, g2⟩ := ih _ h
      exact ⟨expands_inject _ _ g1, g2⟩
    · rename_i hb
      cases h
      exact ⟨expands_self _ (by simpa using hb), hnone _ (by simpa using hb)⟩

/-- the expansion ends as soon as the file references nest at most `fuel` deep -/
theorem C26_format_files_end {ε φ : Type} (isPtr : ε → Option φ) (load : φ → List ε) (depth : φ → Nat)
    (hd : ∀ f, ∀ e ∈ load f, ∀ g, isPtr e = some g → depth g < depth f)
    (fuel : Nat) (block : List ε) (h : ∀ e ∈ block, ∀ g, isPtr e = some g → depth g < fuel) :
    ∃ out, injectAll isPtr load fuel block = some out := by
  induction fuel generalizing block with
  | zero =>
    refine ⟨block, ?_⟩
    simp only [injectAll]
    rw [if_neg]
    intro hany
    obtain ⟨e, he, hs⟩ := List.any_eq_true.1 hany
    obtain ⟨g, hg⟩ := Option.isSome_iff_exists.1 hs
    have := h e he g hg
    omega
  | succ n ih =>
    simp only [injectAll]
    split
    · refine ih _ ?_
      intro e he g hg
      simp only [inject, List.mem_flatMap] at he
      obtain ⟨e', he', hm⟩ := he
      cases hp : isPtr e' with
      | none => rw [hp] at hm; simp at hm; subst hm; rw [hp] at hg; cases hg
      | some f =>
        rw [hp] at hm
        have h1 := h e' he' f hp
        have h2 := hd f e hm g hg
        omega
    · exact ⟨_, rfl⟩

/-- **C44 (limit).** A format file that refers to itself is expanded forever. -/
theorem C44_self_reference_never_ends {ε φ : Type} (isPtr : ε → Option φ) (load : φ → List ε) (e : ε) (f : φ)
    (he : isPtr e = some f) (hf : e ∈ load f) (block : List ε) (hb : e ∈ block) (fuel : Nat) :
    injectAll isPtr load fuel block = none := by
  have hany : ∀ b : List ε, e ∈ b → b.any (fun e => (isPtr e).isSome) = true := by
    intro b hb
    exact List.any_eq_true.2 ⟨e, hb, by simp [he]⟩
  induction fuel generalizing block with
  | zero => simp only [injectAll]; rw [if_pos (hany _ hb)]
  | succ n ih =>
    simp only [injectAll]
    rw [if_pos (hany _ hb)]
    refine ih _ ?_
    simp only [inject, List.mem_flatMap]
    exact ⟨e, hb, by rw [he]; exact hf⟩

/-! ### C27: unique names -/

theorem natStr_no_underscore (n : Nat) : '_' ∉ natStr n := by
  intro h
  have := Nat.isDigit_of_mem_toDigits (by decide) (by decide) h
  exact absurd this (by decide)

theorem numbered_inj {a b : Str} {i j : Nat} (h : numbered a i = numbered b j) : a = b ∧ i = j := by
  unfold numbered at h
  have hs : ∀ (x y d e : Str), '_' ∉ d → '_' ∉ e → x ++ c!"_" ++ d = y ++ c!"_" ++ e → x = y ∧ d = e := by
    intro x y d e hd hee heq
    have hr : (d.reverse ++ '_' :: x.reverse) = (e.reverse ++ '_' :: y.reverse) := by
      have := congrArg List.reverse heq
      simpa using this
    have hd' : '_' ∉ d.reverse := by simpa using hd
    have he' : '_' ∉ e.reverse := by simpa using hee
    have split : ∀ (p q r s : Str), '_' ∉ p → '_' ∉ q → p ++ '_' :: r = q ++ '_' :: s → p = q ∧ r = s := by
      intro p
      induction p with
      | nil =>
        intro q r s _ hq h
        cases q with
        | nil => simpa using h
        | cons c cs =>
          simp only [List.nil_append, List.cons_append, List.cons.injEq] at h
          exact absurd (List.mem_cons.2 (Or.inl h.1)) hq
      | cons c cs ih =>
        intro q r s hp hq h
        cases q with
        | nil =>
          simp only [List.nil_append, List.cons_append, List.cons.injEq] at h
          exact absurd (List.mem_cons.2 (Or.inl h.1.symm)) hp
        | cons c' cs' =>
          simp only [List.cons_append, List.cons.injEq] at h
          obtain ⟨g1, g2⟩ := ih cs' r s (fun e => hp (by simp [e])) (fun e => hq (by simp [e])) h.2
          exact ⟨by rw [h.1, g1], g2⟩
    obtain ⟨g1, g2⟩ := split _ _ _ _ hd' he' hr
    exact ⟨List.reverse_injective g2, List.reverse_injective g1⟩
  obtain ⟨h1, h2⟩ := hs a b (natStr i) (natStr j) (natStr_no_underscore i) (natStr_no_underscore j) h
  refine ⟨h1, ?_⟩
  have := congrArg (Nat.ofDigitChars 10 · 0) h2
  simpa [natStr, Nat.ofDigitChars_ten_toDigits] using this

theorem occurrence_lt_of_lt (names : List Str) (i j : Nat) (hij : i < j) (hj : j < names.length)
    (h : names[i]'(by omega) = names[j]) : occurrence names i < occurrence names j := by
  have e1 : names.getD i [] = names[j] := by
    rw [List.getD_eq_getElem?_getD, List.getElem?_eq_getElem (by omega)]; exact h
  have e2 : names.getD j [] = names[j] := by
    rw [List.getD_eq_getElem?_getD, List.getElem?_eq_getElem hj]; rfl
  unfold occurrence
  rw [e1, e2]
  have hsplit : names.take j = names.take i ++ (names.drop i).take (j - i) := by
    have := List.take_add (l := names) (i := i) (j := j - i)
    rw [show i + (j - i) = j by omega] at this
    exact this
  rw [hsplit, List.count_append]
  have hpos : 0 < ((names.drop i).take (j - i)).count names[j] := by
    rw [List.count_pos_iff]
    have hi : i < names.length := by omega
    rw [List.drop_eq_getElem_cons hi, show j - i = (j - i - 1) + 1 by omega, List.take_succ_cons, h]
    simp
  omega

theorem occurrence_inj (names : List Str) (i j : Nat) (hi : i < names.length) (hj : j < names.length)
    (h : names[i] = names[j]) (ho : occurrence names i = occurrence names j) : i = j := by
  rcases Nat.lt_trichotomy i j with hlt | heq | hgt
  · have := occurrence_lt_of_lt names i j hlt hj h; omega
  · exact heq
  · have := occurrence_lt_of_lt names j i hgt hi h.symm; omega

/-- **C27 (numbering).** There are as many names as before; a name that occurs once keeps its name; the
`k`-th of several equal names (counting from 0) gets `_k` appended. -/
theorem C27_numbering (names : List Str) (i : Nat) (hi : i < names.length) :
    (reindexDupes names)[i]? = some (if names.count names[i] ≤ 1 then names[i]
      else names[i] ++ c!"_" ++ natStr ((names.take i).count names[i])) := by
  have e : names.getD i [] = names[i] := by
    rw [List.getD_eq_getElem?_getD, List.getElem?_eq_getElem hi]; rfl
  unfold reindexDupes
  rw [List.getElem?_map, List.getElem?_range hi]
  simp only [Option.map_some, e]
  congr 1
  split
  · rfl
  · unfold numbered occurrence
    rw [e]

theorem C27_length (names : List Str) : (reindexDupes names).length = names.length := by
  simp [reindexDupes]

/-- **C27 (uniqueness).** The resulting names are all different exactly if no unique name is already of the
form that a repeated name gets. -/
theorem C27_unique_iff (names : List Str) :
    (reindexDupes names).Nodup ↔
      ∀ n ∈ names, 1 < names.count n → ∀ k < names.count n,
        ∀ u ∈ names, names.count u = 1 → u ≠ n ++ c!"_" ++ natStr k := by
  have hlen := C27_length names
  have hget : ∀ i (hi : i < names.length), (reindexDupes names)[i]'(by omega) =
      if names.count names[i] ≤ 1 then names[i] else numbered names[i] (occurrence names i) := by
    intro i hi
    have h := C27_numbering names i hi
    rw [List.getElem?_eq_getElem (by omega)] at h
    have h' := Option.some.inj h
    rw [h']
    split
    · rfl
    · unfold numbered occurrence
      have e : names.getD i [] = names[i] := by
        rw [List.getD_eq_getElem?_getD, List.getElem?_eq_getElem hi]; rfl
      rw [e]
  constructor
  · intro hnd n hn hc k hk u hu hcu heq
    obtain ⟨iu, hiu, rfl⟩ := List.getElem_of_mem hu
    -- the k-th occurrence of n
    have hex : ∃ i, ∃ hi : i < names.length, names[i] = n ∧ occurrence names i = k := by
      have aux : ∀ (l : List Str) (m : Nat), m < l.count n → ∃ i, ∃ hi : i < l.length, l[i] = n ∧ (l.take i).count n = m := by
        intro l
        induction l with
        | nil => intro m hm; simp at hm
        | cons x xs ih =>
          intro m hm
          by_cases hx : x = n
          · subst hx
            cases m with
            | zero => exact ⟨0, by simp, rfl, by simp⟩
            | succ m =>
              rw [List.count_cons_self] at hm
              obtain ⟨i, hi, h1, h2⟩ := ih m (by omega)
              exact ⟨i + 1, by simpa using hi, by simpa using h1, by simp [h2]⟩
          · rw [List.count_cons_of_ne hx] at hm
            obtain ⟨i, hi, h1, h2⟩ := ih m hm
            refine ⟨i + 1, by simpa using hi, by simpa using h1, ?_⟩
            rw [List.take_succ_cons, List.count_cons_of_ne hx, h2]
      obtain ⟨i, hi, h1, h2⟩ := aux names k hk
      refine ⟨i, hi, h1, ?_⟩
      unfold occurrence
      have e : names.getD i [] = names[i] := by
        rw [List.getD_eq_getElem?_getD, List.getElem?_eq_getElem hi]; rfl
      rw [e, h1, h2]
    obtain ⟨i, hi, h1, h2⟩ := hex
    have hne : i ≠ iu := by
      intro h; subst h; rw [h1] at hcu; omega
    have e1 := hget i hi
    have e2 := hget iu hiu
    rw [h1, if_neg (by omega), h2] at e1
    rw [if_pos (by omega), heq] at e2
    have := (List.nodup_iff_injective_get.1 hnd) (a₁ := ⟨i, by omega⟩) (a₂ := ⟨iu, by omega⟩)
      (by simp only [List.get_eq_getElem]; rw [e1, e2]; rfl)
    simp at this
    exact hne this
  · intro hno
    rw [List.nodup_iff_injective_get]
    intro a b hab
    obtain ⟨i, hi⟩ := a
    obtain ⟨j, hj⟩ := b
    simp only [List.get_eq_getElem] at hab
    rw [hlen] at hi hj
    rw [hget i hi, hget j hj] at hab
    have hij : i = j := by
      have posi : 0 < names.count names[i] := List.count_pos_iff.2 (List.getElem_mem _)
      have posj : 0 < names.count names[j] := List.count_pos_iff.2 (List.getElem_mem _)
      have hocc : ∀ i (hi : i < names.length), occurrence names i < names.count names[i] := by
        intro i hi
        unfold occurrence
        have e : names.getD i [] = names[i] := by
          rw [List.getD_eq_getElem?_getD, List.getElem?_eq_getElem hi]; rfl
        rw [e]
        have hs := congrArg (List.count names[i]) (List.take_append_drop i names)
        rw [List.count_append, List.drop_eq_getElem_cons hi, List.count_cons_self] at hs
        omega
      split at hab
      · split at hab
        · rename_i h1 h2
          by_contra hne
          have hone : names.count names[i] = 1 := by omega
          have hsym : occurrence names i = occurrence names j := by
            have := hocc i hi
            have h2' := hocc j hj
            omega
          exact hne (occurrence_inj names i j hi hj hab hsym)
        · rename_i h1 h2
          exact absurd hab (hno names[j] (List.getElem_mem _) (by omega) _ (hocc j hj) names[i] (List.getElem_mem _) (by omega))
      · split at hab
        · rename_i h1 h2
          exact absurd hab.symm (hno names[i] (List.getElem_mem _) (by omega) _ (hocc i hi) names[j] (List.getElem_mem _) (by omega))
        · obtain ⟨g1, g2⟩ := numbered_inj hab
          exact occurrence_inj names i j hi hj g1 g2
    subst hij; rfl

example : (reindexDupes [c!"A", c!"B", c!"A"]) = [c!"A_0", c!"B", c!"A_1"] := rfl
/-- a collision -/
example : (reindexDupes [c!"A", c!"A_0", c!"A"]) = [c!"A_0", c!"A_0", c!"A_1"] := rfl

/-- **C27 (table columns).** Table columns are numbered in the same way, except for repeated RESERVED
columns, whose first start byte comes before the number. -/
theorem C27_table_columns (names starts : List Str) (h : names.count c!"RESERVED" ≤ 1) :
    reindexNames names starts = reindexDupes names := by
  unfold reindexNames reindexDupes
  refine List.map_congr_left ?_
  intro i hi
  simp only
  split
  · rfl
  · rename_i hc
    rw [if_neg]
    intro e
    rw [e] at hc
    omega

/-- repeated RESERVED columns get the first start byte of their group and their number -/
theorem C27_reserved (names starts : List Str) (i : Nat) (hi : i < names.length) (hr : names[i] = c!"RESERVED")
    (hc : 1 < names.count c!"RESERVED") :
    (reindexNames names starts)[i]? = some (c!"RESERVED_" ++ starts.getD (names.idxOf c!"RESERVED") [] ++ c!"_" ++
      natStr ((names.take i).count c!"RESERVED")) := by
  have e : names.getD i [] = c!"RESERVED" := by
    rw [List.getD_eq_getElem?_getD, List.getElem?_eq_getElem hi]; exact hr
  unfold reindexNames
  rw [List.getElem?_map, List.getElem?_range hi]
  simp only [Option.map_some, e, if_true, numbered, occurrence]
  rw [if_neg (by omega)]

end Verif.Format
