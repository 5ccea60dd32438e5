/-
Lemmas about the names of the elements of XML labels.
-/
import Verif.Lemmas.Xml
import Verif.Props.Datatypes

namespace Verif.Xml
open Verif.Py Verif.Pvl Verif.Xml.Spec

/-! ### replacing -/

theorem replaceFuel_plain (u new : Str) (s : Str) (h : '{' ∉ s) : ∀ n, replaceFuel ('{' :: u) new n s = s := by
  induction s with
  | nil => intro n; cases n <;> rfl
  | cons c s ih =>
    intro n
    cases n with
    | zero => rfl
    | succ n =>
      have hc : c ≠ '{' := fun e => h (by rw [e]; simp)
      rw [replaceFuel, if_neg, ih (fun h' => h (by simp [h']))]
      rw [List.isPrefixOf_iff_prefix]
      intro hp
      rw [List.cons_prefix_cons] at hp
      exact hc hp.1.symm

theorem replace_plain (u new s : Str) (h : '{' ∉ s) : replace ('{' :: u) new s = s := replaceFuel_plain u new s h _

theorem prefix_brace {u v name : Str} (hu : '}' ∉ u) (hv : '}' ∉ v) (h : v ++ ['}'] <+: u ++ '}' :: name) : v = u := by
  induction v generalizing u with
  | nil =>
    cases u with
    | nil => rfl
    | cons c u =>
      rw [List.nil_append, List.cons_append, List.cons_prefix_cons] at h
      exact absurd (by rw [h.1]; simp) hu
  | cons d v ih =>
    cases u with
    | nil =>
      rw [List.nil_append, List.cons_append, List.cons_prefix_cons] at h
      exact absurd (by rw [h.1]; simp) hv
    | cons c u =>
      rw [List.cons_append, List.cons_append, List.cons_prefix_cons] at h
      rw [h.1, ih (fun h' => hu (by simp [h'])) (fun h' => hv (by simp [h'])) h.2]

theorem replace_other (u v new name : Str) (hu : Plain u) (hv : Plain v) (hn : '{' ∉ name) (hne : v ≠ u) :
    replace ('{' :: v ++ ['}']) new ('{' :: u ++ '}' :: name) = '{' :: u ++ '}' :: name := by
  unfold replace
  simp only [List.cons_append, List.length_cons]
  rw [replaceFuel, if_neg, replaceFuel_plain]
  · intro h
    rcases List.mem_append.mp h with h | h
    · exact hu.1 h
    · rcases List.mem_cons.mp h with h | h
      · cases h
      · exact hn h
  · rw [List.isPrefixOf_iff_prefix]
    intro h
    rw [List.cons_prefix_cons] at h
    exact hne (prefix_brace hu.2 hv.2 h.2)

theorem replace_same (u new name : Str) (hn : '{' ∉ name) :
    replace ('{' :: u ++ ['}']) new ('{' :: u ++ '}' :: name) = new ++ name := by
  unfold replace
  simp only [List.cons_append, List.length_cons]
  rw [replaceFuel, if_pos]
  · rw [show ('{' :: (u ++ '}' :: name)).drop ('{' :: (u ++ ['}'])).length = name by
      rw [show '{' :: (u ++ '}' :: name) = ('{' :: (u ++ ['}'])) ++ name by simp, List.drop_left]]
    rw [replaceFuel_plain _ _ _ hn]
  · rw [List.isPrefixOf_iff_prefix]
    exact ⟨name, by simp⟩

theorem modify_plain (m : List (Str × Str)) (s : Str) (h : '{' ∉ s) : modify (tagModify m) s = s := by
  unfold modify tagModify
  induction m with
  | nil => rfl
  | cons e m ih =>
    rw [List.map_cons, List.foldl_cons]
    simp only [List.cons_append]
    rw [replace_plain _ _ _ h]
    exact ih

theorem modify_known (m : List (Str × Str)) (u p name : Str) (hm : ∀ e ∈ m, Plain e.1 ∧ Plain e.2) (hd : (m.map Prod.fst).Nodup)
    (hin : (u, p) ∈ m) (hn : '{' ∉ name) :
    modify (tagModify m) ('{' :: u ++ '}' :: name) = (if (strip p).isEmpty then [] else p ++ [':']) ++ name := by
  induction m with
  | nil => simp at hin
  | cons e m ih =>
    rw [List.map_cons, List.nodup_cons] at hd
    have hstep : modify (tagModify (e :: m)) ('{' :: u ++ '}' :: name) =
        modify (tagModify m) (replace ('{' :: e.1 ++ ['}']) (if (strip e.2).isEmpty then [] else e.2 ++ [':']) ('{' :: u ++ '}' :: name)) := rfl
    rw [hstep]
    rcases List.mem_cons.mp hin with h | h
    · subst h
      simp only
      rw [replace_same u _ name hn, modify_plain]
      intro h
      rcases List.mem_append.mp h with h | h
      · have hp := (hm (u, p) (by simp)).2.1
        split at h
        · simp at h
        · rcases List.mem_append.mp h with h | h
          · exact hp h
          · simp at h
      · exact hn h
    · have hne : e.1 ≠ u := by
        intro he
        exact hd.1 (List.mem_map.mpr ⟨(u, p), h, he.symm⟩)
      rw [replace_other u e.1 _ name (hm (u, p) (by simp [h])).1 (hm e (by simp)).1 hn hne]
      exact ih (fun e he => hm e (by simp [he])) hd.2 h

/-! ### the map of the namespaces -/

theorem enforce_gen (P D S a b c p u : Str) (h1 : D ≠ P) (h2 : S ≠ P) (h3 : S ≠ D) :
    [(a, P), (b, D), (c, S)].foldl (fun (elem : Str × Str) pu => if elem.2 = P then ([], elem.2) else if pu.2 = elem.2 then (pu.1, elem.2) else elem)
      (p, u) = (if u = P then [] else if u = D then b else if u = S then c else p, u) := by
  simp only [List.foldl_cons, List.foldl_nil]
  by_cases e1 : u = P
  · subst e1; simp
  · by_cases e2 : u = D
    · subst e2
      simp [h1, h3, Ne.symm h1]
    · by_cases e3 : u = S
      · subst e3
        simp [h2, Ne.symm h2, Ne.symm h3, h3]
      · simp [e1, e2, e3, Ne.symm e1, Ne.symm e2, Ne.symm e3]

theorem enforce_eq (d : Str × Str) : enforce d = (if d.2 = pds then [] else if d.2 = c!"http://pds.nasa.gov/pds4/disp/v1" then c!"disp"
    else if d.2 = c!"http://pds.nasa.gov/pds4/sp/v1" then c!"sp" else d.1, d.2) :=
  enforce_gen pds c!"http://pds.nasa.gov/pds4/disp/v1" c!"http://pds.nasa.gov/pds4/sp/v1" c!"pds" c!"disp" c!"sp" d.1 d.2
    (by decide) (by decide) (by decide)

/-- the state after some declarations -/
structure MapInv (decls m : List (Str × Str)) : Prop where
  nodup : (m.map Prod.fst).Nodup
  entries : ∀ e ∈ m, ∃ d, decls.find? (fun d => d.2 = e.1) = some d ∧ e.2 = (enforce d).1
  all : ∀ d ∈ decls, d.2 ∈ m.map Prod.fst

theorem nsMap_inv (decls : List (Str × Str)) : MapInv decls (nsMap decls) := by
  unfold nsMap
  suffices h : ∀ (ds pre m : List (Str × Str)), MapInv pre m → MapInv (pre ++ ds)
      (ds.foldl (fun m d => if m.any (fun e => e.1 == (enforce d).2) then m else m ++ [((enforce d).2, (enforce d).1)]) m) by
    have := h decls [] [] ⟨by simp, by simp, by simp⟩
    simpa using this
  intro ds
  induction ds with
  | nil => intro pre m h; simpa using h
  | cons d ds ih =>
    intro pre m h
    rw [List.foldl_cons, show pre ++ d :: ds = (pre ++ [d]) ++ ds by simp]
    apply ih
    have he2 : (enforce d).2 = d.2 := by rw [enforce_eq]
    rw [he2]
    by_cases hin : m.any (fun e => e.1 == d.2) = true
    · rw [if_pos hin]
      obtain ⟨e, he, heq⟩ := List.any_eq_true.mp hin
      refine ⟨h.nodup, ?_, ?_⟩
      · intro e' he'
        obtain ⟨d', h1, h2⟩ := h.entries e' he'
        exact ⟨d', by rw [List.find?_append, h1]; rfl, h2⟩
      · intro d' hd'
        rcases List.mem_append.mp hd' with h' | h'
        · exact h.all d' h'
        · rw [List.mem_singleton] at h'
          subst h'
          rw [← (beq_iff_eq.mp heq)]
          exact List.mem_map_of_mem (f := Prod.fst) he
    · rw [if_neg hin]
      have hnot : d.2 ∉ m.map Prod.fst := by
        intro hmem
        obtain ⟨e, he, heq⟩ := List.mem_map.mp hmem
        exact hin (List.any_eq_true.mpr ⟨e, he, by simp [heq]⟩)
      refine ⟨?_, ?_, ?_⟩
      · rw [List.map_append, List.map_cons, List.map_nil]
        exact List.nodup_append.mpr ⟨h.nodup, by simp, by
          intro a ha b hb
          rw [List.mem_singleton] at hb
          subst hb
          intro hab; rw [hab] at ha; exact hnot ha⟩
      · intro e he
        rcases List.mem_append.mp he with he | he
        · obtain ⟨d', h1, h2⟩ := h.entries e he
          exact ⟨d', by rw [List.find?_append, h1]; rfl, h2⟩
        · rw [List.mem_singleton] at he
          subst he
          refine ⟨d, ?_, rfl⟩
          have : pre.find? (fun d' => d'.2 = d.2) = none := by
            rw [List.find?_eq_none]
            intro d' hd' heq
            simp only [decide_eq_true_eq] at heq
            exact hnot (heq ▸ h.all d' hd')
          rw [List.find?_append, this]
          simp
      · intro d' hd'
        rw [List.map_append, List.mem_append]
        rcases List.mem_append.mp hd' with h' | h'
        · exact Or.inl (h.all d' h')
        · rw [List.mem_singleton] at h'
          subst h'
          exact Or.inr (by simp)

theorem nsMap_prefix (decls : List (Str × Str)) (u : Str) (hu : u ∈ decls.map Prod.snd) (hne : u ≠ pds) :
    (u, prefixOf decls u) ∈ nsMap decls := by
  have h := nsMap_inv decls
  obtain ⟨d, hd, rfl⟩ := List.mem_map.mp hu
  obtain ⟨e, he, heq⟩ := List.mem_map.mp (h.all d hd)
  obtain ⟨d', h1, h2⟩ := h.entries e he
  have hd2 : d'.2 = e.1 := by simpa using List.find?_some h1
  have : e = (d.2, prefixOf decls d.2) := by
    ext1
    · exact heq
    · rw [h2, enforce_eq]
      simp only
      rw [hd2, heq, if_neg hne]
      unfold prefixOf
      rw [← heq, h1]
  rw [← this]
  exact he

theorem nsMap_plain (decls : List (Str × Str)) (hp : ∀ e ∈ decls, Plain e.1 ∧ Plain e.2) : ∀ e ∈ nsMap decls, Plain e.1 ∧ Plain e.2 := by
  intro e he
  obtain ⟨d, h1, h2⟩ := (nsMap_inv decls).entries e he
  have hd2 : d.2 = e.1 := by simpa using List.find?_some h1
  have hd := hp d (List.mem_of_find?_eq_some h1)
  refine ⟨hd2 ▸ hd.2, ?_⟩
  rw [h2, enforce_eq]
  simp only
  split
  · exact ⟨by simp, by simp⟩
  · split
    · exact ⟨by decide, by decide⟩
    · split
      · exact ⟨by decide, by decide⟩
      · exact hd.1

/-! ### names -/

theorem infix_sep {s a b : Str} {c : Char} (hc : c ∉ s) (h : s <:+: a ++ c :: b) : s <:+: a ∨ s <:+: b := by
  obtain ⟨p, q, hpq⟩ := h
  rw [List.append_assoc, List.append_eq_append_iff] at hpq
  rcases hpq with ⟨as, h1, h2⟩ | ⟨bs, h1, h2⟩
  · -- p is within a
    rw [List.append_eq_append_iff] at h2
    rcases h2 with ⟨xs, h3, h4⟩ | ⟨ys, h3, h4⟩
    · exact Or.inl ⟨p, xs, by rw [h1, h3, List.append_assoc]⟩
    · cases ys with
      | nil => exact Or.inl ⟨p, [], by rw [h1, h3]; simp⟩
      | cons y ys =>
        rw [List.cons_append, List.cons.injEq] at h4
        exact absurd (by rw [h3, h4.1]; simp) hc
  · cases bs with
    | nil =>
      rw [List.nil_append] at h2
      cases s with
      | nil => exact Or.inl (List.nil_infix)
      | cons s0 s =>
        rw [List.cons_append, List.cons.injEq] at h2
        exact absurd (by rw [h2.1]; simp) hc
    | cons y bs =>
      rw [List.cons_append, List.cons.injEq] at h2
      exact Or.inr ⟨bs, q, by rw [List.append_assoc]; exact h2.2.symm⟩

theorem pds_infix (u name : Str) (hs : '/' ∉ name) : pds <:+: '{' :: u ++ '}' :: name ↔ pds <:+: u := by
  constructor
  · intro h
    have h1 : pds <:+: [] ++ '{' :: (u ++ '}' :: name) := by simpa using h
    rcases infix_sep (by decide) h1 with h2 | h2
    · have := h2.eq_of_length_le (by simp [pds])
      simp [pds] at this
    · rcases infix_sep (by decide) h2 with h3 | h3
      · exact h3
      · exact absurd (h3.subset (show '/' ∈ pds by decide)) hs
  · rintro ⟨p, q, h⟩
    exact ⟨'{' :: p, q ++ '}' :: name, by rw [← h]; simp⟩

theorem takeWhile_brace (u : Str) : ('{' :: u).takeWhile (· ≠ '{') = [] := by simp

theorem after_brace (u name : Str) (hu : '}' ∉ u) : after '}' ('{' :: u ++ '}' :: name) = name := by
  unfold after
  have : ('{' :: u ++ '}' :: name).dropWhile (· ≠ '}') = '}' :: name := by
    rw [List.dropWhile_append_of_pos]
    · simp
    · intro x hx
      simp only [ne_eq, decide_not, Bool.not_eq_eq_eq_not, Bool.not_true, decide_eq_false_iff_not]
      rintro rfl
      rcases List.mem_cons.mp hx with h | h
      · cases h
      · exact hu h
  rw [this]
  rfl

theorem name_shown (decls : List (Str × Str)) (hp : ∀ e ∈ decls, Plain e.1 ∧ Plain e.2) (ns : Option Str) (name : Str)
    (hn : Plain name) (hs : '/' ∉ name) (hdecl : ∀ u, ns = some u → u ∈ decls.map Prod.snd) :
    modify (tagModify (nsMap decls)) (bareTag (etag ns name)) = shownName decls ns name := by
  have hpds : pdsUri = pds := rfl
  cases ns with
  | none =>
    simp only [etag, shownName]
    have : contains name pdsUri = false := by
      rw [← Bool.not_eq_true, Datatypes.contains_iff]
      intro h
      exact hs (h.subset (show '/' ∈ pdsUri by decide))
    rw [bareTag, this]
    exact modify_plain _ _ hn.1
  | some u =>
    have hu := hdecl u rfl
    have hup : Plain u := by
      obtain ⟨d, hd, rfl⟩ := List.mem_map.mp hu
      exact (hp d hd).2
    simp only [etag, shownName]
    by_cases hpu : pds <:+: u
    · rw [if_pos hpu, bareTag, hpds, if_pos ((Datatypes.contains_iff _ _).mpr ((pds_infix u name hs).mpr hpu))]
      rw [after_brace u name hup.2, show ('{' :: u ++ '}' :: name).takeWhile (· ≠ '{') = [] by simp, List.nil_append]
      exact modify_plain _ _ hn.1
    · have hne : u ≠ pds := fun h => hpu (h ▸ List.infix_rfl)
      rw [if_neg hpu, bareTag, hpds, if_neg (fun h => hpu ((pds_infix u name hs).mp ((Datatypes.contains_iff _ _).mp h)))]
      rw [modify_known _ u (prefixOf decls u) name (nsMap_plain decls hp) (nsMap_inv decls).nodup (nsMap_prefix decls u hu hne) hn.1]
      by_cases hb : ∀ c ∈ prefixOf decls u, isSpace c = true
      · rw [if_pos hb, if_pos ((strip_isEmpty _).mpr hb)]
        rfl
      · rw [if_neg hb, if_neg (fun h => hb ((strip_isEmpty _).mp h))]
        simp

end Verif.Xml
