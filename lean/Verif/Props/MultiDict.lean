import Verif.Lemmas.Rename
import Verif.Props.Pvl

/-!
# C03, C05, C07: interpreting values, numbering duplicate pointers, unpacking PDS4 labels
-/
namespace Verif.Pvl
open Verif.Py Spec

/-! ## C03 -/

/-- **C03.** If the interpreter `f` succeeds on every leaf (with value `g a`), interpretation yields
the same label with every leaf replaced by its interpretation: same keys, order and nesting. -/
theorem C03_literalize_maps_leaves {α : Type} (f : α → Except PyErr α) (g : α → α) (t : MDict α)
    (h : ∀ a ∈ leaves t, f a = .ok (g a)) :
    ∃ t', literalizeBlock f t = .ok t' ∧ t' = mapLeaves g t ∧ keys t' = keys t ∧
      leaves t' = (leaves t).map g := by
  refine ⟨mapLeaves g t, ?_, rfl, keys_mapLeaves g t, leaves_mapLeaves g t⟩
  have := lit_ok f g t h
  unfold literalizeBlock
  rw [this]

/-- **C03.** Interpretation of a label fails exactly when the interpretation of some leaf fails. -/
theorem C03_literalize_fails_iff {α : Type} (f : α → Except PyErr α) (t : MDict α) :
    (∃ e, literalizeBlock f t = .error e) ↔ ∃ a ∈ leaves t, ∃ e, f a = .error e := by
  constructor
  · rintro ⟨e, he⟩
    by_contra hno
    have hok : ∀ a ∈ leaves t, f a = .ok ((match f a with | .ok b => b | .error _ => a)) := by
      intro a ha
      cases hf : f a with
      | ok b => rfl
      | error e' => exact absurd ⟨a, ha, e', hf⟩ hno
    obtain ⟨t', h1, -⟩ := C03_literalize_maps_leaves f (fun a => match f a with | .ok b => b | .error _ => a) t hok
    rw [h1] at he; cases he
  · intro h
    obtain ⟨e, he⟩ := lit_err f t h
    refine ⟨e, ?_⟩
    unfold literalizeBlock
    rw [he]

/-- Non-vacuity of C03: a nested label with duplicates and an interpreter that changes leaves. -/
example : literalizeBlock (fun n : Nat => .ok (n + 1))
    [(c!"A", .leaf 1), (c!"B", .node [(c!"A", .leaf 2), (c!"C", .node [])]), (c!"A", .leaf 3)]
    = .ok [(c!"A", .leaf 2), (c!"B", .node [(c!"A", .leaf 3), (c!"C", .node [])]), (c!"A", .leaf 4)] := by
  rfl

/-! ## C05 -/

theorem mem_targetsOf_iff (K qs : List Str) (h : ∀ q, q ∈ qs ↔ q ∈ K ∧ ∃ r, q = '^' :: r) (x : Str) :
    x ∈ targetsOf K qs ↔ IsTarget K x := by
  simp only [targetsOf, List.mem_flatMap, IsTarget]
  constructor
  · rintro ⟨q, hq, hx⟩
    obtain ⟨h1, r, rfl⟩ := (h q).1 hq
    by_cases hN : Numbered K ('^' :: r) = true
    · rw [if_pos hN] at hx; exact ⟨r, h1, hN, hx⟩
    · rw [if_neg hN] at hx; cases hx
  · rintro ⟨r, h1, hN, hx⟩
    exact ⟨_, (h _).2 ⟨h1, r, rfl⟩, by rwa [if_pos hN]⟩

theorem startsWith_caret (p : Str) : startsWith p c!"^" = true ↔ ∃ r, p = '^' :: r := by
  cases p with
  | nil => simp [startsWith]
  | cons a p =>
    simp only [startsWith, List.isPrefixOf_cons_cons, List.isPrefixOf_nil_left, Bool.and_true, beq_iff_eq,
      List.cons.injEq, exists_and_left, exists_eq', and_true]
    exact eq_comm

/-- No name to be numbered is already the numbered form of another one (`^X` and `^X_0` both
duplicated), and no pointer is written with two carets. -/
def Spec.NoClash (K : List Str) : Prop :=
  (∀ x y, IsTarget K x → IsTarget K y → ∀ i, x ≠ y ++ '_' :: Nat.toDigits 10 i) ∧
  ∀ r, ('^' :: '^' :: r) ∉ K

/-- No duplicated pointer has more object definitions than the pointer has occurrences. -/
def Spec.EnoughPointers (K : List Str) : Prop :=
  ∀ r, ('^' :: r) ∈ K → Numbered K ('^' :: r) = true → contains ('^' :: r) c!"DESCRIPTION" = false →
    K.count r ≤ K.count ('^' :: r)

/-- Both outcomes of pointer numbering. -/
theorem index_outcome {α : Type} (t : MDict α) (params : List Str) (hparams : params.Perm (keys t))
    (hclash : NoClash (keys t)) (T : List Str) (hT : ∀ x, x ∈ T ↔ IsTarget (keys t) x) :
    (EnoughPointers (keys t) → ∃ t' params' extra,
      indexDuplicatePointers t params = .ok (t', params') ∧ skeleton t' = skeleton t ∧
      keys t' = numberAll T [] (keys t) ∧ params'.Perm (keys t' ++ extra) ∧
      ∀ x ∈ extra, ∃ r i, ('^' :: r) ∈ keys t ∧ Numbered (keys t) ('^' :: r) = true ∧
        (keys t).count r ≤ i ∧ i < (keys t).count ('^' :: r) ∧ x = r ++ '_' :: Nat.toDigits 10 i) ∧
    (¬ EnoughPointers (keys t) → indexDuplicatePointers t params = .error .indexError) := by
  have hmem : ∀ q, q ∈ distinct (pointers t) ↔ q ∈ keys t ∧ ∃ r, q = '^' :: r := by
    intro q
    rw [mem_distinct, pointers, (digKeys_perm _ t).mem_iff, List.mem_filter, startsWith_caret]
  have hTg : ∀ x, x ∈ targetsOf (keys t) (distinct (pointers t)) ↔ x ∈ T := fun x => by
    rw [hT, mem_targetsOf_iff _ _ hmem]
  have key := indexGroups_spec (α := α) (pointers t) (keys t) (distinct (pointers t)) [] t params []
    (fun q hq => by
      obtain ⟨h1, r, rfl⟩ := (hmem q).1 hq
      exact ⟨r, rfl, count_pointers t _ ((startsWith_caret _).2 ⟨r, rfl⟩)⟩)
    (nodup_distinct _) (numberAll_nil _ _).symm (by simpa using hparams) (by simp)
    (fun x hx Q hQ i => by
      rw [List.nil_append, hTg, hT] at hx hQ
      exact hclash.1 x Q hx hQ i)
    (by simp)
    (fun q hq q' hq' _ _ hne x hx hx' => by
      obtain ⟨h1, r, rfl⟩ := (hmem q).1 hq
      obtain ⟨h1', r', rfl⟩ := (hmem q').1 hq'
      have e1 : x = '^' :: r ∨ x = r := by
        unfold targets at hx; split at hx <;> simp at hx <;> tauto
      have e2 : x = '^' :: r' ∨ x = r' := by
        unfold targets at hx'; split at hx' <;> simp at hx' <;> tauto
      rcases e1 with rfl | rfl <;> rcases e2 with e2 | e2
      · exact hne e2
      · subst e2; exact hclash.2 _ h1'
      · subst e2; exact hclash.2 _ h1
      · subst e2; exact hne rfl)
  have hcnt : (∀ q ∈ distinct (pointers t), CountOk (keys t) q) ↔ EnoughPointers (keys t) := by
    constructor
    · intro h r hr hN hD
      exact h _ ((hmem _).2 ⟨hr, r, rfl⟩) hN hD
    · intro h q hq hN hD
      obtain ⟨h1, r, rfl⟩ := (hmem q).1 hq
      exact h r h1 hN hD
  constructor
  · intro henough
    obtain ⟨t', params', ex, a1, a2, a3, a4, a5⟩ := key.1 (hcnt.2 henough)
    refine ⟨t', params', ex, a1, a2, ?_, a4, ?_⟩
    · rw [a3]; exact numberAll_congr (fun x => by rw [List.nil_append, hTg]) _ _
    · intro x hx
      rcases a5 x hx with h | ⟨q, hq, hN, -, i, h1, h2, h3⟩
      · cases h
      · obtain ⟨hk, r, rfl⟩ := (hmem q).1 hq
        exact ⟨r, i, hk, hN, h1, h2, h3⟩
  · intro hno
    refine key.2 ?_
    by_contra hc
    refine hno (hcnt.1 (fun q hq => ?_))
    by_contra hb
    exact hc ⟨q, hq, hb⟩

/-- **C05.** Whenever loading a label with duplicate pointers succeeds, every duplicated pointer
`P` (not STRUCTURE/PDS_OBJECT) and (unless DESCRIPTION) the object definitions it points to get the
suffix `_j` for their `j`-th occurrence, every other key is unchanged, and the label keeps its shape
and its values. `T` is the list of the names to be numbered. -/
theorem C05_duplicates_numbered {α : Type} (t t' : MDict α) (params params' : List Str)
    (hparams : params.Perm (keys t)) (hclash : NoClash (keys t))
    (T : List Str) (hT : ∀ x, x ∈ T ↔ IsTarget (keys t) x)
    (hok : indexDuplicatePointers t params = .ok (t', params')) :
    keys t' = numberAll T [] (keys t) ∧ skeleton t' = skeleton t := by
  obtain ⟨h1, h2⟩ := index_outcome t params hparams hclash T hT
  by_cases he : EnoughPointers (keys t)
  · obtain ⟨a, b, c, e, e1, e2, -⟩ := h1 he
    rw [hok] at e; cases e; exact ⟨e2, e1⟩
  · rw [h2 he] at hok; cases hok

/-- **C05.** Loading a label with duplicate pointers fails exactly when some duplicated
(non-DESCRIPTION) pointer has more object definitions of its name than the pointer occurs; the
failure is an IndexError. -/
theorem C05_fails_iff_too_many_objects {α : Type} (t : MDict α) (params : List Str)
    (hparams : params.Perm (keys t)) (hclash : NoClash (keys t)) :
    ((∃ r, indexDuplicatePointers t params = .ok r) ↔ EnoughPointers (keys t)) ∧
    (¬ EnoughPointers (keys t) ↔ indexDuplicatePointers t params = .error .indexError) := by
  have hmem : ∀ q, q ∈ distinct (pointers t) ↔ q ∈ keys t ∧ ∃ r, q = '^' :: r := by
    intro q
    rw [mem_distinct, pointers, (digKeys_perm _ t).mem_iff, List.mem_filter, startsWith_caret]
  obtain ⟨h1, h2⟩ := index_outcome t params hparams hclash _ (fun x => mem_targetsOf_iff _ _ hmem x)
  by_cases he : EnoughPointers (keys t)
  · obtain ⟨a, b, c, e, -⟩ := h1 he
    rw [e]
    refine ⟨⟨fun _ => he, fun _ => ⟨_, rfl⟩⟩, ⟨fun h => absurd he h, fun h => by cases h⟩⟩
  · rw [h2 he]
    exact ⟨⟨fun ⟨r, h⟩ => (by cases h), fun h => absurd h he⟩, ⟨fun _ => rfl, fun _ => he⟩⟩

/-- **C05.** After numbering, the flat parameter list is a rearrangement of the label's keys, when
every duplicated pointer has as many object definitions as occurrences. -/
theorem C05_parameter_list {α : Type} (t t' : MDict α) (params params' : List Str)
    (hparams : params.Perm (keys t)) (hclash : NoClash (keys t))
    (heq : ∀ r, ('^' :: r) ∈ keys t → Numbered (keys t) ('^' :: r) = true →
      (keys t).count r = (keys t).count ('^' :: r))
    (hok : indexDuplicatePointers t params = .ok (t', params')) :
    params'.Perm (keys t') := by
  have hmem : ∀ q, q ∈ distinct (pointers t) ↔ q ∈ keys t ∧ ∃ r, q = '^' :: r := by
    intro q
    rw [mem_distinct, pointers, (digKeys_perm _ t).mem_iff, List.mem_filter, startsWith_caret]
  obtain ⟨h1, h2⟩ := index_outcome t params hparams hclash _ (fun x => mem_targetsOf_iff _ _ hmem x)
  obtain ⟨a, b, c, e, -, -, e3, e4⟩ := h1 (fun r h hN _ => Nat.le_of_eq (heq r h hN))
  rw [hok] at e; cases e
  have : c = [] := by
    apply List.eq_nil_iff_forall_not_mem.2
    intro x hx
    obtain ⟨r, i, g1, g2, g3, g4, -⟩ := e4 x hx
    rw [heq r g1 g2] at g3; omega
  simpa [this] using e3

/-- **C05.** In general the parameter list after numbering covers every key of the label; what it
may hold besides are numbered names of object definitions that the label does not have. -/
theorem C05_parameter_list_covers {α : Type} (t t' : MDict α) (params params' : List Str)
    (hparams : params.Perm (keys t)) (hclash : NoClash (keys t))
    (hok : indexDuplicatePointers t params = .ok (t', params')) :
    ∀ k ∈ keys t', k ∈ params' := by
  have hmem : ∀ q, q ∈ distinct (pointers t) ↔ q ∈ keys t ∧ ∃ r, q = '^' :: r := by
    intro q
    rw [mem_distinct, pointers, (digKeys_perm _ t).mem_iff, List.mem_filter, startsWith_caret]
  obtain ⟨h1, h2⟩ := index_outcome t params hparams hclash _ (fun x => mem_targetsOf_iff _ _ hmem x)
  by_cases he : EnoughPointers (keys t)
  · obtain ⟨a, b, c, e, -, -, e3, -⟩ := h1 he
    rw [hok] at e; cases e
    intro k hk; rw [e3.mem_iff]; simp [hk]
  · rw [h2 he] at hok; cases hok

theorem count_numberAll_indexed (T : List Str) (p : Str) (hp : p ∈ T) (j : Nat) (seen ks : List Str)
    (hfree : indexed p j ∉ T) (huniq : ∀ y ∈ T, ∀ i, indexed y i = indexed p j → y = p) :
    (numberAll T seen ks).count (indexed p j) =
      (if seen.count p ≤ j ∧ j < seen.count p + ks.count p then 1 else 0) + ks.count (indexed p j) := by
  induction ks generalizing seen with
  | nil =>
    rw [if_neg (by simp)]; rfl
  | cons k ks ih =>
    have ih' := ih (k :: seen)
    by_cases hk : k = p
    · subst hk
      simp only [numberAll, if_pos hp, ← indexed_eq]
      have hc1 : (k :: seen).count k = seen.count k + 1 := List.count_cons_self
      have hc2 : (k :: ks).count k = ks.count k + 1 := List.count_cons_self
      have hc3 : (k :: ks).count (indexed k j) = ks.count (indexed k j) :=
        List.count_cons_of_ne (indexed_ne_self k j).symm
      rw [List.count_cons, ih', hc1, hc2, hc3]
      by_cases hj : seen.count k = j
      · subst hj
        rw [if_pos (c := (_ == _) = true) (by simp), if_neg (by omega), if_pos (by omega)]; omega
      · rw [if_neg (c := (indexed k (List.count k seen) == indexed k j) = true)
          (by simpa using fun h => hj (indexed_inj h))]
        by_cases hA : List.count k seen ≤ j ∧ j < List.count k seen + (List.count k ks + 1)
        · rw [if_pos hA, if_pos (by omega)]; omega
        · rw [if_neg hA, if_neg (by omega)]; omega
    · have hhead : ((if k ∈ T then k ++ '_' :: Nat.toDigits 10 (List.count k seen) else k)
          == indexed p j) = (k == indexed p j) := by
        by_cases hkT : k ∈ T
        · rw [if_pos hkT]
          have h1 : k ++ '_' :: Nat.toDigits 10 (List.count k seen) ≠ indexed p j :=
            fun h => hk (huniq k hkT _ h)
          have h2 : k ≠ indexed p j := fun h => hfree (h ▸ hkT)
          rw [beq_eq_false_iff_ne.2 h1, beq_eq_false_iff_ne.2 h2]
        · rw [if_neg hkT]
      simp only [numberAll]
      rw [List.count_cons, hhead, ih', List.count_cons_of_ne hk, List.count_cons_of_ne hk,
        List.count_cons]
      omega

/-- How often the key `P_j` occurs after numbering: once for the `j`-th occurrence of `P`, plus as
often as the label had it before. -/
theorem count_after_numbering {α : Type} (t t' : MDict α) (params params' : List Str)
    (hparams : params.Perm (keys t)) (hclash : NoClash (keys t))
    (hok : indexDuplicatePointers t params = .ok (t', params'))
    (p : Str) (hp : IsTarget (keys t) p) (j : Nat) (hj : j < (keys t).count p)
    (huniq : ∀ y, IsTarget (keys t) y → ∀ i,
      y ++ '_' :: Nat.toDigits 10 i = p ++ '_' :: Nat.toDigits 10 j → y = p) :
    (keys t').count (p ++ '_' :: Nat.toDigits 10 j) =
      1 + (keys t).count (p ++ '_' :: Nat.toDigits 10 j) := by
  have hmem : ∀ q, q ∈ distinct (pointers t) ↔ q ∈ keys t ∧ ∃ r, q = '^' :: r := by
    intro q
    rw [mem_distinct, pointers, (digKeys_perm _ t).mem_iff, List.mem_filter, startsWith_caret]
  have hT := fun x => mem_targetsOf_iff _ _ hmem x
  obtain ⟨h1, -⟩ := C05_duplicates_numbered t t' params params' hparams hclash _ hT hok
  rw [h1, ← indexed_eq, count_numberAll_indexed _ p ((hT p).2 hp) j [] (keys t)
    (fun h => hclash.1 _ p ((hT _).1 h) hp j rfl)
    (fun y hy i h => huniq y ((hT y).1 hy) i h)]
  rw [if_pos (by simpa using hj)]

/-- **C05.** Distinguishable: a name that occurs `n` times becomes keys `P_0 … P_(n-1)`, each
occurring exactly once, provided the label did not use these names before. -/
theorem C05_duplicates_distinguishable {α : Type} (t t' : MDict α) (params params' : List Str)
    (hparams : params.Perm (keys t)) (hclash : NoClash (keys t))
    (hok : indexDuplicatePointers t params = .ok (t', params'))
    (p : Str) (hp : IsTarget (keys t) p) (j : Nat) (hj : j < (keys t).count p)
    (hfree : p ++ '_' :: Nat.toDigits 10 j ∉ keys t)
    (huniq : ∀ y, IsTarget (keys t) y → ∀ i,
      y ++ '_' :: Nat.toDigits 10 i = p ++ '_' :: Nat.toDigits 10 j → y = p) :
    (keys t').count (p ++ '_' :: Nat.toDigits 10 j) = 1 := by
  rw [count_after_numbering t t' params params' hparams hclash hok p hp j hj huniq,
    List.count_eq_zero.2 hfree]

/-- **C32 (limit of C05).** If the label already has the key `P_j`, then after numbering that key is
ambiguous: it occurs at least twice, once as the old entry and once as the renamed `P`. -/
theorem C32_existing_suffix_stays_ambiguous {α : Type} (t t' : MDict α) (params params' : List Str)
    (hparams : params.Perm (keys t)) (hclash : NoClash (keys t))
    (hok : indexDuplicatePointers t params = .ok (t', params'))
    (p : Str) (hp : IsTarget (keys t) p) (j : Nat) (hj : j < (keys t).count p)
    (hused : p ++ '_' :: Nat.toDigits 10 j ∈ keys t)
    (huniq : ∀ y, IsTarget (keys t) y → ∀ i,
      y ++ '_' :: Nat.toDigits 10 i = p ++ '_' :: Nat.toDigits 10 j → y = p) :
    2 ≤ (keys t').count (p ++ '_' :: Nat.toDigits 10 j) := by
  rw [count_after_numbering t t' params params' hparams hclash hok p hp j hj huniq]
  have := List.count_pos_iff.2 hused
  omega

mutual
theorem keysT_length {α : Type} (k k' : Str) (a b : Tree α) (h : skeletonT a = skeletonT b) :
    (keysT k a).length = (keysT k' b).length := by
  match a, b with
  | .leaf _, .leaf _ => simp [keysT]
  | .leaf _, .node _ => simp [skeletonT] at h
  | .node _, .leaf _ => simp [skeletonT] at h
  | .node xs, .node ys =>
    have := keys_length xs ys (by simpa [skeletonT] using h)
    simp [keysT, this]
theorem keys_length {α : Type} (a b : MDict α) (h : skeleton a = skeleton b) :
    (keys a).length = (keys b).length := by
  match a, b with
  | [], [] => rfl
  | [], _ :: _ => simp [skeleton] at h
  | _ :: _, [] => simp [skeleton] at h
  | (k, v) :: xs, (k', v') :: ys =>
    simp only [skeleton, List.cons.injEq, Prod.mk.injEq, true_and] at h
    simp [keys, keysT_length k k' v v' h.1, keys_length xs ys h.2]
end

mutual
theorem extT {α : Type} (k k' : Str) (a b : Tree α) (h : skeletonT a = skeletonT b)
    (hk : keysT k a = keysT k' b) : k = k' ∧ a = b := by
  match a, b with
  | .leaf _, .leaf _ =>
    simp only [keysT, List.cons.injEq, and_true] at hk
    exact ⟨hk, by simpa [skeletonT] using h⟩
  | .leaf _, .node _ => simp [skeletonT] at h
  | .node _, .leaf _ => simp [skeletonT] at h
  | .node xs, .node ys =>
    simp only [keysT] at hk
    have h1 := List.append_inj' hk rfl
    have := ext xs ys (by simpa [skeletonT] using h) h1.1
    exact ⟨by simpa using h1.2, by rw [this]⟩
theorem ext {α : Type} (a b : MDict α) (h : skeleton a = skeleton b) (hk : keys a = keys b) :
    a = b := by
  match a, b with
  | [], [] => rfl
  | [], _ :: _ => simp [skeleton] at h
  | _ :: _, [] => simp [skeleton] at h
  | (k, v) :: xs, (k', v') :: ys =>
    simp only [skeleton, List.cons.injEq, Prod.mk.injEq, true_and] at h
    simp only [keys] at hk
    have h1 := List.append_inj hk (keysT_length k k' v v' h.1)
    obtain ⟨rfl, rfl⟩ := extT k k' v v' h.1 h1.1
    rw [ext xs ys h.2 h1.2]
end

/-- **C05.** The two facts of `C05_duplicates_numbered` pin the result down completely: a label is
determined by its shape-and-values and its key sequence. -/
theorem C05_result_unique {α : Type} (a b : MDict α) (h : skeleton a = skeleton b)
    (hk : keys a = keys b) : a = b := ext a b h hk

theorem contains_of_infix (s sub : Str) (h : sub <:+: s) : contains s sub = true := by
  induction s with
  | nil => rw [contains, List.isEmpty_iff]; exact List.eq_nil_of_infix_nil h
  | cons c s ih =>
    rw [contains, Bool.or_eq_true, List.isPrefixOf_iff_prefix]
    exact (List.infix_cons_iff.1 h).imp id ih

/-- **C05.** A label without duplicated pointers (other than those that are never numbered) is left alone, and so is its parameter
list. -/
theorem C05_no_duplicates_unchanged {α : Type} (t : MDict α) (params : List Str)
    (h : ∀ r, (keys t).count ('^' :: r) ≤ 1 ∨ c!"STRUCTURE" <:+: r ∨ c!"PDS_OBJECT" <:+: r) :
    indexDuplicatePointers t params = .ok (t, params) := by
  have hall : ∀ q, q ∈ distinct (pointers t) →
      (decide ((pointers t).count q > 1) && !(contains q c!"STRUCTURE" || contains q c!"PDS_OBJECT")) = false := by
    intro q hq
    rw [mem_distinct, pointers, (digKeys_perm _ t).mem_iff, List.mem_filter, startsWith_caret] at hq
    obtain ⟨-, r, rfl⟩ := hq
    rw [count_pointers t _ ((startsWith_caret _).2 ⟨r, rfl⟩)]
    rcases h r with h | h | h
    · have : ¬ (keys t).count ('^' :: r) > 1 := by omega
      simp [this]
    · have : contains ('^' :: r) c!"STRUCTURE" = true := 
        contains_of_infix _ _ (h.trans (List.infix_cons (List.infix_refl r)))
      simp [this]
    · have : contains ('^' :: r) c!"PDS_OBJECT" = true := 
        contains_of_infix _ _ (h.trans (List.infix_cons (List.infix_refl r)))
      simp [this]
  have gen : ∀ qs : List Str, (∀ q ∈ qs,
      (decide ((pointers t).count q > 1) && !(contains q c!"STRUCTURE" || contains q c!"PDS_OBJECT")) = false) →
      indexGroups (pointers t) qs (t, params) = .ok (t, params) := by
    intro qs
    induction qs with
    | nil => intro _; rfl
    | cons q qs ih =>
      intro hq
      rw [indexGroups]
      simp only [hq q (by simp), Bool.false_eq_true, if_false]
      exact ih (fun q' h' => hq q' (by simp [h']))
  exact gen _ hall

/-- **C05.** A concrete label: two `^IMAGE` pointers, two IMAGE objects, one other object with a
nested key; numbering succeeds as the theorem says. -/
example : indexDuplicatePointers (α := Nat)
    [(c!"^IMAGE", .leaf 1), (c!"^IMAGE", .leaf 2), (c!"^TABLE", .leaf 3),
     (c!"IMAGE", .node [(c!"LINES", .leaf 4)]), (c!"IMAGE", .node [(c!"LINES", .leaf 5)])]
    [c!"^IMAGE", c!"^IMAGE", c!"^TABLE", c!"LINES", c!"IMAGE", c!"LINES", c!"IMAGE"]
  = .ok ([(c!"^IMAGE_0", .leaf 1), (c!"^IMAGE_1", .leaf 2), (c!"^TABLE", .leaf 3),
     (c!"IMAGE_0", .node [(c!"LINES", .leaf 4)]), (c!"IMAGE_1", .node [(c!"LINES", .leaf 5)])],
    [c!"^TABLE", c!"LINES", c!"LINES", c!"^IMAGE_0", c!"IMAGE_0", c!"^IMAGE_1", c!"IMAGE_1"]) := by
  rfl

/-- The hypotheses of the C05 theorems hold of that label. -/
example : NoClash [c!"^IMAGE", c!"^IMAGE", c!"^TABLE", c!"LINES", c!"IMAGE", c!"LINES", c!"IMAGE"] ∧
    EnoughPointers [c!"^IMAGE", c!"^IMAGE", c!"^TABLE", c!"LINES", c!"IMAGE", c!"LINES", c!"IMAGE"] ∧
    IsTarget [c!"^IMAGE", c!"^IMAGE", c!"^TABLE", c!"LINES", c!"IMAGE", c!"LINES", c!"IMAGE"]
      c!"IMAGE" := by
  have key : ∀ x, IsTarget
      [c!"^IMAGE", c!"^IMAGE", c!"^TABLE", c!"LINES", c!"IMAGE", c!"LINES", c!"IMAGE"] x →
      x = c!"^IMAGE" ∨ x = c!"IMAGE" := by
    rintro x ⟨r, hr, hN, hx⟩
    simp only [List.mem_cons, List.cons.injEq, true_and, List.not_mem_nil, or_false] at hr
    rcases hr with rfl | rfl | rfl | h | h | h | h
    · have : targets c!"^IMAGE" = [c!"^IMAGE", c!"IMAGE"] := by decide
      rw [this] at hx; simpa using hx
    · have : targets c!"^IMAGE" = [c!"^IMAGE", c!"IMAGE"] := by decide
      rw [this] at hx; simpa using hx
    · exact absurd hN (by decide)
    all_goals exact absurd h.1 (by decide)
  refine ⟨⟨?_, ?_⟩, ?_, ⟨c!"IMAGE", by decide, by decide, by decide⟩⟩
  · intro x y hx _ i h
    have hm : '_' ∈ x := by rw [h]; simp
    rcases key x hx with rfl | rfl <;> revert hm <;> decide
  · intro r h
    simp [List.mem_cons, List.cons.injEq] at h
  · intro r hr hN hD
    rcases List.mem_cons.1 hr with h | h
    · cases h; decide
    · rcases List.mem_cons.1 h with h | h
      · cases h; decide
      · rcases List.mem_cons.1 h with h | h
        · cases h; revert hN; decide
        · simp at h

/-- Witness for C32: a label with `^A` twice that already has the key `^A_0`
ends up with two keys `^A_0`, so the pointers are not distinguishable. -/
example :
    indexDuplicatePointers (α := Nat) [(c!"^A", .leaf 1), (c!"^A", .leaf 2), (c!"^A_0", .leaf 3)]
      [c!"^A", c!"^A", c!"^A_0"]
    = .ok ([(c!"^A_0", .leaf 1), (c!"^A_1", .leaf 2), (c!"^A_0", .leaf 3)],
        [c!"^A_0", c!"^A_0", c!"A_0", c!"^A_1", c!"A_1"]) := by
  rfl

/-- Witness for `C05_fails_iff_too_many_objects`: a label with two `^A` pointers but three `A` objects cannot be loaded. -/
example :
    indexDuplicatePointers (α := Nat)
      [(c!"^A", .leaf 1), (c!"^A", .leaf 2), (c!"A", .node []), (c!"A", .node []), (c!"A", .node [])]
      [c!"^A", c!"^A", c!"A", c!"A", c!"A"] = .error .indexError := by
  rfl

/-- **C05.** Adding and removing the caret are inverse to each other. -/
theorem C05_pointerize (s : Str) :
    pointerize (pointerize s) = pointerize s ∧ (∃ r, pointerize s = '^' :: r) ∧
    ((∀ r, s ≠ '^' :: r) → depointerize (pointerize s) = s) ∧
    ((∃ r, s = '^' :: r) → pointerize (depointerize s) = s ∨ ∃ r, s = '^' :: '^' :: r) := by
  have hs := startsWith_caret s
  refine ⟨?_, ?_, ?_, ?_⟩
  · unfold pointerize
    by_cases h : startsWith s c!"^" = true
    · simp [h]
    · rw [if_neg h, if_pos ((startsWith_caret _).2 ⟨s, rfl⟩)]
  · unfold pointerize
    by_cases h : startsWith s c!"^" = true
    · rw [if_pos h]; exact hs.1 h
    · rw [if_neg h]; exact ⟨s, rfl⟩
  · intro h
    have hn : ¬ startsWith s c!"^" = true := fun hh => by
      obtain ⟨r, hr⟩ := hs.1 hh; exact h r hr
    rw [pointerize, if_neg hn, depointerize_caret]
  · rintro ⟨r, rfl⟩
    rw [depointerize_caret]
    by_cases h : startsWith r c!"^" = true
    · obtain ⟨r', rfl⟩ := (startsWith_caret r).1 h
      exact .inr ⟨r', rfl⟩
    · left; rw [pointerize, if_neg h]

/-- **C01 + C05.** For a label that denotes a tree (see `Written`), the key list and parameter list
handed to pointer numbering are the ones these theorems are about. -/
theorem C05_applies_to_parsed_labels (t : MDict Str) (ss : List Stmt) (h : Stated t ss) :
    (parseStatements ss).1 = t ∧ (parseStatements ss).2.1.Perm (keys t) := by
  rw [C01_parse_stated h]; exact ⟨rfl, List.Perm.refl _⟩

/-! ## C07 -/

theorem Spec.Unpacks.append {α : Type} {a b : List (Str × Packed α)} {x y : MDict α}
    (h1 : Unpacks a x) (h2 : Unpacks b y) : Unpacks (a ++ b) (x ++ y) := by
  induction h1 with
  | nil => simpa using h2
  | leaf _ ih => exact Unpacks.leaf ih
  | map hk _ _ ih => exact Unpacks.map hk ih
  | list hk _ _ ih => rw [List.append_assoc]; exact Unpacks.list hk ih

theorem Spec.Unpacks.split {α : Type} (a b : List (Str × Packed α)) (z : MDict α)
    (h : Unpacks (a ++ b) z) : ∃ x y, Unpacks a x ∧ Unpacks b y ∧ z = x ++ y := by
  induction a generalizing z with
  | nil => exact ⟨[], z, .nil, h, rfl⟩
  | cons kv a ih =>
    cases h with
    | leaf h' => obtain ⟨x, y, h1, h2, rfl⟩ := ih _ h'; exact ⟨_, y, .leaf h1, h2, rfl⟩
    | map hk h' => obtain ⟨x, y, h1, h2, rfl⟩ := ih _ h'; exact ⟨_, y, .map hk h1, h2, rfl⟩
    | list hk h' =>
      obtain ⟨x, y, h1, h2, rfl⟩ := ih _ h'
      exact ⟨_, y, .list hk h1, h2, by rw [List.append_assoc]⟩

/-- **C07.** Unpacking a PDS4 label yields its document-order flattening. -/
theorem C07_unpack_document_order {α : Type} (items : List (Str × Packed α)) :
    Unpacks items (unpackWork items) := by
  fun_induction unpackWork items with
  | case1 => exact .nil
  | case2 k xs rest ih =>
    simp only [List.map_attach_eq_pmap, List.pmap_eq_map] at ih
    obtain ⟨x, y, h1, h2, h3⟩ := Unpacks.split _ _ _ ih
    rw [h3]; exact .list h1 h2
  | case3 k kids rest ih1 ih2 => exact .map ih1 ih2
  | case4 k a rest ih => exact .leaf ih

theorem Spec.Unpacks.unique {α : Type} {items : List (Str × Packed α)} {a b : MDict α}
    (h1 : Unpacks items a) (h2 : Unpacks items b) : a = b := by
  induction h1 generalizing b with
  | nil => cases h2; rfl
  | leaf _ ih => cases h2 with | leaf h => rw [ih h]
  | map _ _ ih1 ih2 => cases h2 with | map h h' => rw [ih1 h, ih2 h']
  | list _ _ ih1 ih2 => cases h2 with | list h h' => rw [ih1 h, ih2 h']

/-- **C07.** The document-order flattening is unique, so the previous theorem fixes the result. -/
theorem C07_unpack_unique {α : Type} (items : List (Str × Packed α)) (out : MDict α)
    (h : Unpacks items out) : unpackWork items = out :=
  (C07_unpack_document_order items).unique h

theorem packedLeavesM_map {α : Type} (k : Str) (xs : List (Packed α)) :
    packedLeavesM (xs.map (fun x => (k, x))) = packedLeavesL xs := by
  induction xs with
  | nil => simp [packedLeavesM, packedLeavesL]
  | cons x xs ih => simp [packedLeavesM, packedLeavesL, ih]

theorem leaves_append {α : Type} (a b : MDict α) : leaves (a ++ b) = leaves a ++ leaves b := by
  induction a with
  | nil => simp [leaves]
  | cons x a ih => obtain ⟨k, v⟩ := x; simp [leaves, ih]

/-- **C07.** No scalar of the PDS4 label is lost, duplicated or reordered. -/
theorem C07_unpack_leaves {α : Type} (items : List (Str × Packed α)) :
    leaves (unpackWork items) = packedLeavesM items := by
  have h := C07_unpack_document_order items
  generalize unpackWork items = out at h
  induction h with
  | nil => simp [leaves, packedLeavesM]
  | leaf _ ih => simp [leaves, leavesT, packedLeavesM, packedLeaves, ih]
  | map _ _ ih1 ih2 => simp [leaves, leavesT, packedLeavesM, packedLeaves, ih1, ih2]
  | list _ _ ih1 ih2 =>
    rw [leaves_append, ih1, ih2, packedLeavesM_map]
    simp [packedLeavesM, packedLeaves]

/-- **C07.** The parameter list of a PDS4 label has every key of every level, as often as it occurs. -/
theorem C07_parameters {α : Type} (items : List (Str × Packed α)) :
    (reformatLabel items).2.Perm (keys (reformatLabel items).1) := by
  have := digKeys_perm (fun _ => true) (unpackWork items)
  simpa [reformatLabel] using this

/-- Non-vacuity of C07: a nested list inside a nested mapping. -/
example : Unpacks (α := Nat) [(c!"a", .list [.leaf 1, .map [(c!"b", .list [.leaf 2, .list [.leaf 3]])]]), (c!"c", .leaf 4)]
    [(c!"a", .leaf 1), (c!"a", .node [(c!"b", .leaf 2), (c!"b", .leaf 3)]), (c!"c", .leaf 4)] :=
  .list (sub := [(c!"a", .leaf 1), (c!"a", .node [(c!"b", .leaf 2), (c!"b", .leaf 3)])])
    (.leaf (.map (.list (sub := [(c!"b", .leaf 2), (c!"b", .leaf 3)]) (out := [])
      (.leaf (.list (sub := [(c!"b", .leaf 3)]) (out := []) (.leaf .nil) .nil)) .nil) .nil))
    (.leaf .nil)

end Verif.Pvl
