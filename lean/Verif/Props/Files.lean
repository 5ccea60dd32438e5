/-
C19: file lookup. C48: its limits.
-/
import Verif.Model.Files
import Verif.Spec.Files
import Verif.Lemmas.Str

namespace Verif.Files
open Verif.Py Verif.Files.Spec

/-! ### names -/

theorem splitOn_append_gen (sep : Char) (a b : Str) :
    splitOn sep (a ++ sep :: b) = splitOn sep a ++ splitOn sep b := by
  induction a with
  | nil => simp [splitOn]
  | cons c cs ih =>
    simp only [List.cons_append]
    rw [splitOn, splitOn, ih]
    by_cases h : c = sep
    · rw [if_pos h, if_pos h]; rfl
    · rw [if_neg h, if_neg h]
      cases hs : splitOn sep cs with
      | nil => exact absurd hs (splitOn_ne_nil sep cs)
      | cons w ws => rfl

theorem splitOn_compose (sep : Char) (s : Str) :
    (splitOn sep s).headD [] ++ ((splitOn sep s).tail.map (fun w => sep :: w)).flatten = s := by
  induction s with
  | nil => rfl
  | cons c cs ih =>
    rw [splitOn]
    by_cases h : c = sep
    · subst h
      rw [if_pos rfl]
      cases hs : splitOn c cs with
      | nil => exact absurd hs (splitOn_ne_nil c cs)
      | cons w ws =>
        rw [hs] at ih
        simp only [List.headD_cons, List.tail_cons, List.map_cons, List.flatten_cons, List.nil_append] at ih ⊢
        rw [List.cons_append, ih]
    · rw [if_neg h]
      cases hs : splitOn sep cs with
      | nil => exact absurd hs (splitOn_ne_nil sep cs)
      | cons w ws =>
        rw [hs] at ih
        simp only [List.headD_cons, List.tail_cons] at ih ⊢
        rw [List.cons_append, ih]

theorem splitOn_parts (sep : Char) (s w : Str) (h : w ∈ splitOn sep s) : sep ∉ w := by
  induction s generalizing w with
  | nil => simp only [splitOn, List.mem_singleton] at h; subst h; simp
  | cons c cs ih =>
    rw [splitOn] at h
    by_cases hc : c = sep
    · rw [if_pos hc] at h
      rcases List.mem_cons.1 h with rfl | h
      · simp
      · exact ih w h
    · rw [if_neg hc] at h
      cases hs : splitOn sep cs with
      | nil => exact absurd hs (splitOn_ne_nil sep cs)
      | cons v vs =>
        rw [hs] at h
        simp only [List.mem_cons] at h
        rcases h with rfl | h
        · simp only [List.mem_cons, not_or]
          exact ⟨fun h' => hc h'.symm, ih v (by rw [hs]; simp)⟩
        · exact ih w (by rw [hs]; simp [h])

theorem lowerC_dot (c : Char) : lowerC c = '.' ↔ c = '.' := by
  constructor
  · intro h
    unfold lowerC at h
    split at h
    · rename_i hr
      simp at hr
      have hv : Nat.isValidChar (c.toNat + 32) := by left; omega
      have : (Char.ofNat (c.toNat + 32)).toNat = c.toNat + 32 := by
        rw [Char.ofNat, dif_pos hv]; rfl
      rw [h] at this
      have h46 : ('.').toNat = 46 := rfl
      omega
    · exact h
  · rintro rfl; rfl

theorem splitOn_lower (s : Str) : splitOn '.' (lower s) = (splitOn '.' s).map lower := by
  induction s with
  | nil => rfl
  | cons c cs ih =>
    show splitOn '.' (lowerC c :: lower cs) = _
    rw [splitOn, splitOn, ih]
    by_cases h : c = '.'
    · subst h; rfl
    · rw [if_neg (fun h' => h ((lowerC_dot c).1 h')), if_neg h]
      cases hs : splitOn '.' cs with
      | nil => exact absurd hs (splitOn_ne_nil '.' cs)
      | cons w ws => rfl

theorem mem_dot_lower (s : Str) : '.' ∈ lower s ↔ '.' ∈ s := by
  unfold lower
  rw [List.mem_map]
  constructor
  · rintro ⟨c, hc, h⟩
    rw [lowerC_dot] at h
    subst h; exact hc
  · intro h; exact ⟨'.', h, rfl⟩

theorem lower_append (a b : Str) : lower (a ++ b) = lower a ++ lower b := by simp [lower]

/-- the stem of a lower-case name in terms of its parts -/
def stemParts (parts : List Str) : Str :=
  let exts := parts.tail.map (fun w => '.' :: w)
  if 1 < exts.length ∧ exts.getLastD [] ∈ compressionExtensions then parts.headD [] ++ exts.dropLast.flatten
  else parts.headD [] ++ exts.flatten

theorem lstripDot_ordinary (n : Str) (h : n.head? ≠ some '.') : lstripDot n = n := by
  unfold lstripDot
  apply dropWhile_head
  intro x hx
  rw [hx] at h
  simp only [ne_eq, Option.some.injEq] at h
  simpa using h

theorem endsWith_dot (n : Str) : endsWith n c!"." = true ↔ n.getLast? = some '.' := by
  unfold endsWith
  rw [List.isSuffixOf_iff_suffix]
  constructor
  · rintro ⟨t, rfl⟩; simp
  · intro h
    obtain ⟨h', h2⟩ := List.getLast?_eq_some_iff.1 h
    exact ⟨h', h2.symm⟩

theorem stem_ordinary (n : Str) (h : Ordinary n) : stem n = stemParts (splitOn '.' (lower n)) := by
  obtain ⟨_, h1, h2⟩ := h
  have hsuf : suffixes n = (splitOn '.' n).tail.map (fun w => '.' :: w) := by
    unfold suffixes
    rw [if_neg (fun h' => h2 ((endsWith_dot n).1 h')), lstripDot_ordinary n h1]
  unfold stem stemParts
  rw [hsuf, splitOn_lower]
  cases hs : splitOn '.' n with
  | nil => exact absurd hs (splitOn_ne_nil '.' n)
  | cons w ws =>
    have hm : (ws.map (fun w => '.' :: w)).map lower = (ws.map lower).map (fun w => '.' :: w) := by
      rw [List.map_map, List.map_map]
      apply List.map_congr_left
      intro x _
      rfl
    simp only [List.headD_cons, List.tail_cons, List.map_cons, hm]
    cases ws with
    | nil => simp
    | cons x xs => simp

theorem comp_iff (x : Str) : x ∈ compressionExtensions ↔ Compression x := by
  simp [compressionExtensions, Compression]

theorem comp_form (x : Str) (h : Compression x) : ∃ w, x = '.' :: w ∧ '.' ∉ w := by
  rcases h with rfl | rfl | rfl
  · exact ⟨_, rfl, by decide⟩
  · exact ⟨_, rfl, by decide⟩
  · exact ⟨_, rfl, by decide⟩

theorem stemParts_spec (l : Str) :
    (∀ base x, l = base ++ x → '.' ∈ base → Compression x → stemParts (splitOn '.' l) = base) ∧
    (¬ CompressedName l → stemParts (splitOn '.' l) = l) := by
  constructor
  · rintro base x rfl hb hx
    obtain ⟨w, rfl, hw⟩ := comp_form x hx
    rw [splitOn_append_gen, splitOn_notMem '.' w hw]
    have hc := splitOn_compose '.' base
    cases hs : splitOn '.' base with
    | nil => exact absurd hs (splitOn_ne_nil '.' base)
    | cons v vs =>
      rw [hs] at hc
      have hvs : vs ≠ [] := by
        rintro rfl
        simp only [List.headD_cons, List.tail_cons, List.map_nil, List.flatten_nil, List.append_nil] at hc
        have := splitOn_parts '.' base v (by rw [hs]; simp)
        rw [hc] at this
        exact this hb
      unfold stemParts
      simp only [List.cons_append, List.tail_cons, List.map_append, List.map_cons, List.map_nil,
        List.headD_cons] at hc ⊢
      rw [if_pos]
      · rw [List.dropLast_concat]; exact hc
      · constructor
        · have : 0 < vs.length := List.length_pos_iff.2 hvs
          simp only [List.length_append, List.length_map, List.length_cons, List.length_nil]; omega
        · rw [comp_iff]
          simpa using hx
  · intro hn
    have hc := splitOn_compose '.' l
    unfold stemParts
    simp only
    rw [if_neg, hc]
    rintro ⟨h1, h2⟩
    apply hn
    rw [comp_iff] at h2
    cases hs : splitOn '.' l with
    | nil => exact absurd hs (splitOn_ne_nil '.' l)
    | cons v vs =>
      rw [hs] at hc h1 h2
      simp only [List.headD_cons, List.tail_cons, List.length_map] at hc h1 h2
      have hne : vs.map (fun w => '.' :: w) ≠ [] := by
        intro h; rw [List.map_eq_nil_iff] at h; rw [h] at h1; simp at h1
      have hsplit := List.dropLast_concat_getLast hne
      have hlast : (vs.map (fun w => '.' :: w)).getLastD [] = (vs.map (fun w => '.' :: w)).getLast hne :=
        List.getLastD_eq_getLast?.trans (by rw [List.getLast?_eq_some_getLast hne]; rfl)
      rw [hlast] at h2
      refine ⟨v ++ ((vs.map (fun w => '.' :: w)).dropLast).flatten,
        (vs.map (fun w => '.' :: w)).getLast hne, ?_, ?_, h2⟩
      · rw [List.append_assoc]
        have : ((vs.map (fun w => '.' :: w)).dropLast).flatten ++ (vs.map (fun w => '.' :: w)).getLast hne
            = (vs.map (fun w => '.' :: w)).flatten := by
          have h3 := congrArg List.flatten hsplit
          rw [List.flatten_append] at h3
          simpa using h3
        rw [this]
        exact hc.symm
      · apply List.mem_append.2
        right
        rw [List.mem_flatten]
        cases vs with
        | nil => simp at h1
        | cons a as =>
          cases as with
          | nil => simp at h1
          | cons b bs => exact ⟨'.' :: a, by simp, by simp⟩

/-- **C19 (which names match).** Among ordinary names, the loosely matching ones are exactly the requested
name in other letter case, and that with a compression suffix added (if the requested name has a suffix); a
request for a compressed file in other letter case matches nothing but a doubly compressed one. -/
theorem C19_variant_iff (request n : Str) (h : Ordinary n) : stem n = lower request ↔ Variant request n := by
  rw [stem_ordinary n h]
  obtain ⟨s1, s2⟩ := stemParts_spec (lower n)
  constructor
  · intro hst
    by_cases hc : CompressedName (lower n)
    · obtain ⟨base, x, hb, hd, hx⟩ := hc
      rw [s1 base x hb hd hx] at hst
      right
      refine ⟨?_, x, hx, ?_⟩
      · rw [← mem_dot_lower, ← hst]; exact hd
      · rw [hb, hst]
    · rw [s2 hc] at hst
      left
      exact ⟨hst, hst ▸ hc⟩
  · rintro (⟨h1, h2⟩ | ⟨hd, x, hx, hl⟩)
    · rw [s2 (h1 ▸ h2)]; exact h1
    · exact s1 (lower request) x hl ((mem_dot_lower _).2 hd) hx

/-! ### lookup -/

variable {D : Type}

/-- there is something for this candidate -/
def Available (fs : FS D) (p : D × Str) : Prop := fs.exists p = true ∨ matching fs p ≠ []

theorem checkCases_unavailable (fs : FS D) (pre cs : List (D × Str)) (h : ∀ p ∈ pre, ¬ Available fs p) :
    checkCases fs (pre ++ cs) = checkCases fs cs := by
  induction pre with
  | nil => rfl
  | cons p ps ih =>
    have hp := h p (by simp)
    simp only [Available, not_or, Decidable.not_not] at hp
    simp only [List.cons_append, checkCases]
    rw [if_neg hp.1, hp.2]
    exact ih (fun q hq => h q (List.mem_cons_of_mem _ hq))

/-- **C19 (choice).** The first candidate path for which anything is there decides: if it exists under exactly
that name it is returned; otherwise the first loosely matching entry of its directory, with a warning if there
are several. -/
theorem C19_choice (fs : FS D) (pre post : List (D × Str)) (p : D × Str) (h : ∀ q ∈ pre, ¬ Available fs q) :
    (fs.exists p = true → checkCases fs (pre ++ p :: post) = .ok (p, false)) ∧
    (fs.exists p = false → ∀ m ms, matching fs p = m :: ms →
      checkCases fs (pre ++ p :: post) = .ok ((p.1, m), decide (ms ≠ []))) := by
  rw [checkCases_unavailable fs pre _ h]
  constructor
  · intro he; simp only [checkCases]; rw [if_pos he]
  · intro he m ms hm
    simp only [checkCases, he, Bool.false_eq_true, if_false, hm]

/-- **C19 (search paths).** A file listed under any of several names is looked for in one search path after the
other (the product's own directory is the first), and within a directory under one name after the other: the first
place where anything is there decides, whatever later search paths hold. -/
theorem C19_search_order (fs : FS D) (before after : List D) (d : D) (names₁ names₂ : List Str) (f : Str)
    (h1 : ∀ d' ∈ before, ∀ n ∈ names₁ ++ f :: names₂, ¬ Available fs (d', n))
    (h2 : ∀ n ∈ names₁, ¬ Available fs (d, n)) :
    (fs.exists (d, f) = true →
      checkCases fs (candidates (before ++ d :: after) (names₁ ++ f :: names₂)) = .ok ((d, f), false)) ∧
    (fs.exists (d, f) = false → ∀ m ms, matching fs (d, f) = m :: ms →
      checkCases fs (candidates (before ++ d :: after) (names₁ ++ f :: names₂)) = .ok ((d, m), decide (ms ≠ []))) := by
  have e : candidates (before ++ d :: after) (names₁ ++ f :: names₂) =
      (candidates before (names₁ ++ f :: names₂) ++ names₁.map (fun n => (d, n))) ++ (d, f) ::
        (names₂.map (fun n => (d, n)) ++ candidates after (names₁ ++ f :: names₂)) := by
    simp [candidates]
  rw [e]
  apply C19_choice
  intro q hq
  rw [List.mem_append] at hq
  rcases hq with hq | hq
  · simp only [candidates, List.mem_flatMap, List.mem_map] at hq
    obtain ⟨d', hd', n, hn, rfl⟩ := hq
    exact h1 d' hd' n hn
  · rw [List.mem_map] at hq
    obtain ⟨n, hn, rfl⟩ := hq
    exact h2 n hn

/-- **C19 (not found).** FileNotFoundError exactly when no candidate exists under any matching name. -/
theorem C19_not_found_iff (fs : FS D) (cs : List (D × Str)) :
    checkCases fs cs = .error .fileNotFound ↔ ∀ p ∈ cs, ¬ Available fs p := by
  induction cs with
  | nil => simp [checkCases]
  | cons p ps ih =>
    simp only [checkCases]
    by_cases he : fs.exists p = true
    · rw [if_pos he]
      constructor
      · intro h; cases h
      · intro h; exact absurd (Or.inl he) (h p (by simp))
    · rw [if_neg he]
      cases hm : matching fs p with
      | nil =>
        simp only
        rw [ih]
        constructor
        · intro h q hq
          rcases List.mem_cons.1 hq with rfl | hq
          · rintro (h' | h')
            · exact he h'
            · exact h' hm
          · exact h q hq
        · intro h q hq; exact h q (List.mem_cons_of_mem _ hq)
      | cons m ms =>
        constructor
        · intro h; cases h
        · intro h
          refine absurd (Or.inr ?_) (h p (by simp))
          rw [hm]; simp

theorem checkCases_total (fs : FS D) (cs : List (D × Str)) (e : PyErr) (h : checkCases fs cs = .error e) :
    e = .fileNotFound := by
  induction cs with
  | nil => simp only [checkCases] at h; cases h; rfl
  | cons p ps ih =>
    simp only [checkCases] at h
    split at h
    · cases h
    · split at h
      · exact ih h
      · cases h

/-- **C19 (sound).** What is returned exists, lies in the directory of one of the candidates and is that
candidate or matches its name loosely. -/
theorem C19_result_exists (fs : FS D) (cs : List (D × Str)) (q : D × Str) (w : Bool)
    (h : checkCases fs cs = .ok (q, w)) :
    fs.exists q = true ∧ ∃ p ∈ cs, p.1 = q.1 ∧ (p = q ∨ stem q.2 = lower p.2) := by
  induction cs with
  | nil => simp only [checkCases] at h; cases h
  | cons p ps ih =>
    simp only [checkCases] at h
    split at h
    · rename_i he
      cases h
      exact ⟨he, _, by simp, rfl, .inl rfl⟩
    · split at h
      · obtain ⟨h1, p', h2, h3⟩ := ih h
        exact ⟨h1, p', List.mem_cons_of_mem _ h2, h3⟩
      · rename_i m ms hm
        cases h
        have hmem : m ∈ matching fs p := by rw [hm]; simp
        unfold matching at hmem
        rw [List.mem_filter] at hmem
        refine ⟨?_, p, by simp, rfl, .inr (by simpa using hmem.2)⟩
        simp only [FS.exists, List.contains_iff_mem]
        exact hmem.1

/-- what is available, in terms of directory entries: ordinary entries only -/
theorem C19_available_iff (fs : FS D) (p : D × Str) (hord : ∀ n ∈ (fs.listing p.1).getD [], Ordinary n) :
    Available fs p ↔ ∃ n ∈ (fs.listing p.1).getD [], n = p.2 ∨ Variant p.2 n := by
  unfold Available
  constructor
  · rintro (h | h)
    · refine ⟨p.2, ?_, .inl rfl⟩
      simpa [FS.exists] using h
    · obtain ⟨m, hm⟩ := List.exists_mem_of_ne_nil _ h
      unfold matching at hm
      rw [List.mem_filter] at hm
      exact ⟨m, hm.1, .inr ((C19_variant_iff p.2 m (hord m hm.1)).1 (by simpa using hm.2))⟩
  · rintro ⟨n, hn, rfl | hv⟩
    · left; simpa [FS.exists] using hn
    · right
      have : n ∈ matching fs p := by
        unfold matching
        rw [List.mem_filter]
        exact ⟨hn, by simpa using (C19_variant_iff p.2 n (hord n hn)).2 hv⟩
      intro h0
      rw [h0] at this
      cases this

/-- **C19 (search paths).** A file is taken from the first search path that has it under any matching name. -/
theorem C19_search_paths (fs : FS D) (pre post : List D) (d : D) (f : Str)
    (hpre : ∀ d' ∈ pre, ¬ Available fs (d', f)) (hd : Available fs (d, f)) :
    ∃ n w, checkCases fs (candidates (pre ++ d :: post) [f]) = .ok ((d, n), w) ∧ n ∈ (fs.listing d).getD [] := by
  have hc : candidates (pre ++ d :: post) [f] = pre.map (fun d' => (d', f)) ++ (d, f) :: candidates post [f] := by
    simp [candidates, List.map_eq_flatMap]
  obtain ⟨h1, h2⟩ := C19_choice fs (pre.map (fun d' => (d', f))) (candidates post [f]) (d, f) (by
    intro q hq
    obtain ⟨d', hd', rfl⟩ := List.mem_map.1 hq
    exact hpre d' hd')
  rw [hc]
  cases he : fs.exists (d, f) with
  | true => exact ⟨f, false, h1 he, by simpa [FS.exists] using he⟩
  | false =>
    rcases hd with hd | hd
    · rw [he] at hd; cases hd
    · cases hm : matching fs (d, f) with
      | nil => exact absurd hm hd
      | cons m ms =>
        refine ⟨m, _, h2 he m ms hm, ?_⟩
        have : m ∈ matching fs (d, f) := by rw [hm]; simp
        unfold matching at this
        exact (List.mem_filter.1 this).1

theorem tryExtensions_spec (fs : FS D) (p : D × Str) (pre post : List Str) (x : Str) (hx : Available fs (p.1, withSuffix p.2 x))
    (h : ∀ y ∈ pre, ¬ Available fs (p.1, withSuffix p.2 y)) :
    ∃ q w, checkCases fs [(p.1, withSuffix p.2 x)] = .ok (q, w) ∧ tryExtensions fs p (pre ++ x :: post) = some q := by
  induction pre with
  | nil =>
    simp only [List.nil_append, tryExtensions]
    cases hc : checkCases fs [(p.1, withSuffix p.2 x)] with
    | ok r => exact ⟨r.1, r.2, rfl, rfl⟩
    | error e =>
      have := checkCases_total fs _ e hc
      subst this
      exact absurd hx ((C19_not_found_iff fs _).1 hc _ (by simp))
  | cons y ys ih =>
    obtain ⟨q, w, h1, h2⟩ := ih (fun z hz => h z (List.mem_cons_of_mem _ hz))
    refine ⟨q, w, h1, ?_⟩
    simp only [List.cons_append, tryExtensions]
    have : checkCases fs [(p.1, withSuffix p.2 y)] = .error .fileNotFound := by
      rw [C19_not_found_iff]
      intro r hr
      simp only [List.mem_singleton] at hr
      subst hr
      exact h y (by simp)
    rw [this]
    exact h2

theorem tryExtensions_none (fs : FS D) (p : D × Str) (xs : List Str) :
    tryExtensions fs p xs = none ↔ ∀ y ∈ xs, ¬ Available fs (p.1, withSuffix p.2 y) := by
  induction xs with
  | nil => simp [tryExtensions]
  | cons y ys ih =>
    simp only [tryExtensions, List.forall_mem_cons]
    cases hc : checkCases fs [(p.1, withSuffix p.2 y)] with
    | ok r =>
      simp only [reduceCtorEq, false_iff, not_and]
      intro h
      have := (C19_not_found_iff fs [(p.1, withSuffix p.2 y)]).2 (by
        intro q hq; simp only [List.mem_singleton] at hq; subst hq; exact h)
      rw [this] at hc; cases hc
    | error e =>
      have := checkCases_total fs _ e hc
      subst this
      have hna := (C19_not_found_iff fs _).1 hc _ (List.mem_singleton.2 rfl)
      simp only [ih, hna, not_false_eq_true, true_and]

/-- is the data file itself a label, by its name -/
def isLabelName (text : Str) : Bool :=
  labelExtensions.any (endsWith (lower text)) ||
    ([c!"ce1", c!"ce2", c!"ce3", c!"ce4", c!"ce5", c!"ce6"].any (contains (lower text)) &&
      changeExtensions.any (endsWith (lower text)))

/-- **C19 (labels).** For a data file that is not itself a label and without a label given by the user, the
label is the file of the same name with the first of the extensions .xml, .lbl, .lblx under which anything is
found; there is none exactly if nothing is found under any of them. A label named by the user is looked up
loosely and must exist, unless existence checks are off. -/
theorem C19_label (fs : FS D) (text : Str) (p : D × Str) (skip : Bool) :
    (isLabelName text = false → (∀ y ∈ [c!".xml", c!".lbl", c!".lblx"], ¬ Available fs (p.1, withSuffix p.2 y)) →
      labelFor fs text p none skip = .ok none) ∧
    (isLabelName text = false → ∀ pre x post, [c!".xml", c!".lbl", c!".lblx"] = pre ++ x :: post →
      (∀ y ∈ pre, ¬ Available fs (p.1, withSuffix p.2 y)) → Available fs (p.1, withSuffix p.2 x) →
      ∃ q w, checkCases fs [(p.1, withSuffix p.2 x)] = .ok (q, w) ∧ labelFor fs text p none skip = .ok (some q)) ∧
    (∀ l q w, checkCases fs [l] = .ok (q, w) → labelFor fs text p (some l) false = .ok (some q)) ∧
    (∀ l, labelFor fs text p (some l) true = .ok (some l)) ∧
    (∀ l, ¬ Available fs l → labelFor fs text p (some l) false = .error .fileNotFound) := by
  refine ⟨?_, ?_, ?_, ?_, ?_⟩
  · intro hl h
    unfold labelFor
    simp only
    unfold isLabelName at hl
    rw [if_neg (by rw [hl]; simp)]
    exact congrArg Except.ok ((tryExtensions_none fs p labelExtensions).2 h)
  · intro hl pre x post hsp hpre hx
    obtain ⟨q, w, h1, h2⟩ := tryExtensions_spec fs p pre post x hx hpre
    refine ⟨q, w, h1, ?_⟩
    unfold labelFor
    simp only
    unfold isLabelName at hl
    rw [if_neg (by rw [hl]; simp)]
    have : labelExtensions = pre ++ x :: post := hsp
    rw [this, h2]
  · intro l q w h
    unfold labelFor
    simp [h, Except.map]
  · intro l; rfl
  · intro l h
    have : checkCases fs [l] = .error .fileNotFound := by
      rw [C19_not_found_iff]
      intro q hq; simp only [List.mem_singleton] at hq; subst hq; exact h
    unfold labelFor
    simp [this, Except.map]

/-- **C19 (extensions).** Replacing an extension: a name `base.old` with a nonempty base and extension becomes
`base.new`; a name without dots gets the extension added. -/
theorem C19_with_extension (base old ext : Str) (hb : base ≠ []) (ho : old ≠ []) (hd : '.' ∉ old) :
    withSuffix (base ++ '.' :: old) ext = base ++ ext ∧ withSuffix old ext = old ++ ext := by
  constructor
  · unfold withSuffix
    simp only [List.reverse_append, List.reverse_cons, List.append_assoc, List.singleton_append]
    have htake : ∀ (l : Str) (r : Str), '.' ∉ l → (l ++ '.' :: r).takeWhile (fun c => c != '.') = l := by
      intro l r hl
      induction l with
      | nil => simp
      | cons c cs ih =>
        simp only [List.mem_cons, not_or] at hl
        have : (c != '.') = true := by
          simp only [bne_iff_ne, ne_eq]; exact fun h => hl.1 h.symm
        simp only [List.cons_append, List.takeWhile_cons, this, if_true]
        rw [ih hl.2]
    have hdrop : ∀ (l : Str) (r : Str), '.' ∉ l → (l ++ '.' :: r).dropWhile (fun c => c != '.') = '.' :: r := by
      intro l r hl
      induction l with
      | nil => simp
      | cons c cs ih =>
        simp only [List.mem_cons, not_or] at hl
        have : (c != '.') = true := by
          simp only [bne_iff_ne, ne_eq]; exact fun h => hl.1 h.symm
        simp only [List.cons_append, List.dropWhile_cons, this, if_true]
        exact ih hl.2
    have hd' : '.' ∉ old.reverse := by simpa using hd
    rw [htake _ _ hd', hdrop _ _ hd', if_neg]
    · simp
    · rintro (h | h)
      · exact ho (by simpa using h)
      · simp only [List.length_cons, List.length_reverse] at h
        have := List.length_pos_iff.2 hb
        omega
  · unfold withSuffix
    have : ∀ (l : Str), '.' ∉ l → l.dropWhile (fun c => c != '.') = [] := by
      intro l hl
      induction l with
      | nil => rfl
      | cons c cs ih =>
        simp only [List.mem_cons, not_or] at hl
        have : (c != '.') = true := by
          simp only [bne_iff_ne, ne_eq]; exact fun h => hl.1 h.symm
        rw [List.dropWhile_cons, if_pos this]
        exact ih hl.2
    simp only
    rw [this old.reverse (by simpa using hd)]
    rw [if_pos (.inr (by simp))]

/-! ### C48: limits -/

/-- **C48 (limit).** A request for a compressed file (`x.img.gz`) is never answered by the same name in other
letter case. -/
theorem C48_offcase_compressed (request n : Str) (hc : CompressedName (lower request)) (hn : Ordinary n)
    (hl : lower n = lower request) : stem n ≠ lower request := by
  rw [ne_eq, C19_variant_iff request n hn]
  rintro (⟨_, h⟩ | ⟨_, x, hx, h⟩)
  · exact h hc
  · rw [hl] at h
    have := congrArg List.length h
    rcases hx with rfl | rfl | rfl <;> simp at this

/-- **C48 (limit).** A hidden file `.anything.ext` answers requests for `.ext`; a file whose name ends with a
dot answers requests for the part before its first dot. -/
theorem C48_dotted_names (w x : Str) (hw : '.' ∉ w) (hx : '.' ∉ x) (hwn : w ≠ []) (hxn : x ≠ []) (y : Str) :
    stem ('.' :: (w ++ '.' :: x)) = '.' :: lower x ∧ stem (w ++ '.' :: (y ++ c!".")) = lower w := by
  constructor
  · have h1 : endsWith ('.' :: (w ++ '.' :: x)) c!"." = false := by
      rw [Bool.eq_false_iff, ne_eq, endsWith_dot]
      intro h
      have hx2 : ('.' :: (w ++ '.' :: x)).getLast? = x.getLast? := by
        have : ('.' :: (w ++ '.' :: x)) = ('.' :: (w ++ ['.'])) ++ x := by simp
        rw [this, List.getLast?_append, List.getLast?_eq_some_getLast hxn]; rfl
      rw [hx2] at h
      exact hx (List.mem_of_getLast? h)
    have h2 : lstripDot ('.' :: (w ++ '.' :: x)) = w ++ '.' :: x := by
      unfold lstripDot
      rw [List.dropWhile_cons, if_pos (by rfl)]
      apply dropWhile_head
      intro c hc
      cases w with
      | nil => exact absurd rfl hwn
      | cons a as =>
        simp only [List.cons_append, List.head?_cons, Option.some.injEq] at hc
        subst hc
        simp only [List.mem_cons, not_or] at hw
        simpa using fun h => hw.1 h.symm
    have h3 : suffixes ('.' :: (w ++ '.' :: x)) = ['.' :: x] := by
      unfold suffixes
      rw [h1, h2, splitOn_append '.' w x hw, splitOn_notMem '.' x hx]
      rfl
    unfold stem
    rw [h3]
    simp only [splitOn, if_true, List.headD_cons, List.map_cons, List.map_nil, List.length_cons, List.length_nil]
    rw [if_neg (by omega), if_neg (by omega)]
    simp [lower, lowerC]
  · have h1 : endsWith (w ++ '.' :: (y ++ c!".")) c!"." = true := by
      rw [endsWith_dot]
      have : w ++ '.' :: (y ++ ['.']) = (w ++ '.' :: y) ++ ['.'] := by simp
      rw [this, List.getLast?_append]; rfl
    unfold stem suffixes
    rw [h1, splitOn_append '.' w _ hw]
    rfl

/-! ### examples -/

/-- one directory -/
def exampleFS : FS Unit := ⟨fun _ => some [c!"readme", c!"Data.IMG.gz", c!"DATA.img", c!"data.lbl"]⟩

example : checkCases exampleFS [((), c!"data.img")] = .ok (((), c!"Data.IMG.gz"), true) := by rfl
example : checkCases exampleFS [((), c!"x.tab"), ((), c!"DATA.img")] = .ok (((), c!"DATA.img"), false) := by rfl
example : checkCases exampleFS [((), c!"data.img.gz")] = .error .fileNotFound := by rfl
example : labelFor exampleFS c!"/d/DATA.img" ((), c!"DATA.img") none false = .ok (some ((), c!"data.lbl")) := by rfl
example : Ordinary c!"Data.IMG.gz" := by unfold Ordinary; decide

end Verif.Files
