import Mathlib.Data.List.Perm.Basic
import Mathlib.Data.List.Count
import Mathlib.Data.List.Dedup
import Mathlib.Data.List.Nodup
import Verif.Lemmas.MultiDict

namespace Verif.Pvl
open Verif.Py Spec

theorem indexed_eq (k : Str) (i : Nat) : indexed k i = k ++ '_' :: Nat.toDigits 10 i := rfl

theorem indexed_ne_self (k : Str) (i : Nat) : indexed k i ≠ k := by
  intro h
  have := congrArg List.length h
  simp [indexed] at this

theorem toDigits_inj {i j : Nat} (h : Nat.toDigits 10 i = Nat.toDigits 10 j) : i = j := by
  have := congrArg (fun l => Nat.ofDigitChars 10 l 0) h
  simpa using this

theorem indexed_inj {k : Str} {i j : Nat} (h : indexed k i = indexed k j) : i = j := by
  simp only [indexed, List.append_cancel_left_eq, List.cons.injEq, true_and] at h
  exact toDigits_inj h

theorem numberAll_nil (seen ks : List Str) : numberAll [] seen ks = ks := by
  induction ks generalizing seen with
  | nil => rfl
  | cons k ks ih => simp [numberAll, ih]

theorem number_numberAll (P : Str) (T : List Str) (hP : P ∉ T) (hT : ∀ Q ∈ T, ∀ i, P ≠ indexed Q i)
    (seen ks : List Str) :
    number P (seen.count P) (numberAll T seen ks) = numberAll (P :: T) seen ks := by
  induction ks generalizing seen with
  | nil => rfl
  | cons k ks ih =>
    by_cases hk : k = P
    · subst hk
      have := ih (k :: seen)
      rw [List.count_cons_self] at this
      simp only [numberAll, if_neg hP, number, if_pos, List.mem_cons, true_or, this]
    · have := ih (k :: seen)
      rw [List.count_cons_of_ne hk] at this
      by_cases hkT : k ∈ T
      · have h2 := hT k hkT (seen.count k)
        simp only [numberAll, number, List.mem_cons, hk, hkT, or_true, if_true, this]
        rw [if_neg (fun h => h2 h.symm)]
      · simp only [numberAll, number, List.mem_cons, hk, hkT, or_false, if_false, this]

theorem count_numberAll (x : Str) (T : List Str) (hx : x ∉ T) (hT : ∀ Q ∈ T, ∀ i, x ≠ indexed Q i)
    (seen ks : List Str) : (numberAll T seen ks).count x = ks.count x := by
  induction ks generalizing seen with
  | nil => rfl
  | cons k ks ih =>
    simp only [numberAll]
    by_cases hk : k ∈ T
    · rw [if_pos hk, ← indexed_eq, List.count_cons_of_ne (fun h => hT k hk _ h.symm), ih,
        List.count_cons_of_ne (by rintro rfl; exact hx hk)]
    · rw [if_neg hk]
      simp only [List.count_cons, ih]

theorem number_id (P : Str) (i : Nat) (ks : List Str) (h : P ∉ ks) : number P i ks = ks := by
  induction ks generalizing i with
  | nil => rfl
  | cons k ks ih =>
    simp only [List.mem_cons, not_or] at h
    rw [number, if_neg (fun e => h.1 e.symm), ih i h.2]

theorem number_perm (P : Str) (i : Nat) (ks : List Str) :
    List.Perm (number P i ks)
      ((List.range' i (ks.count P)).map (indexed P) ++ ks.filter (· ≠ P)) := by
  induction ks generalizing i with
  | nil => simp [number]
  | cons k ks ih =>
    by_cases hk : k = P
    · subst hk
      rw [number, if_pos rfl, List.count_cons_self, List.range'_succ]
      simp only [List.map_cons, List.cons_append, ne_eq, not_true_eq_false, decide_false,
        Bool.false_eq_true, not_false_eq_true, List.filter_cons_of_neg]
      exact List.Perm.cons _ (ih (i + 1))
    · rw [number, if_neg hk, List.count_cons_of_ne hk, List.filter_cons_of_pos (by simpa using hk)]
      exact (List.Perm.cons _ (ih i)).trans List.perm_middle.symm

theorem perm_split (P : Str) (l : List Str) :
    List.Perm l (List.replicate (l.count P) P ++ l.filter (· ≠ P)) := by
  induction l with
  | nil => simp
  | cons k l ih =>
    by_cases hk : k = P
    · subst hk
      simp only [List.count_cons_self, List.replicate_succ, List.cons_append, ne_eq,
        not_true_eq_false, decide_false, Bool.false_eq_true, not_false_eq_true,
        List.filter_cons_of_neg]
      exact List.Perm.cons _ ih
    · rw [List.count_cons_of_ne hk, List.filter_cons_of_pos (by simpa using hk)]
      exact (List.Perm.cons _ ih).trans List.perm_middle.symm

/-! ### pointers of a label are the `^` keys -/

mutual
theorem digKeysT_perm {α} (pred : Str → Bool) (k : Str) (t : Tree α) :
    List.Perm ([k].filter pred ++ digKeysT pred t) ((keysT k t).filter pred) := by
  match t with
  | .leaf a => simp [digKeysT, keysT]
  | .node kids =>
    have ih := digKeys_perm pred kids
    simp only [digKeysT, keysT, List.filter_append]
    simp only [digKeys] at ih
    exact List.perm_append_comm.trans (ih.append_right _)
theorem digKeys_perm {α} (pred : Str → Bool) (t : MDict α) :
    List.Perm (digKeys pred t) ((keys t).filter pred) := by
  match t with
  | [] => simp [digKeys, digKeysNested, keys]
  | (k, v) :: rest =>
    have ih := digKeys_perm pred rest
    have ih2 := digKeysT_perm pred k v
    simp only [digKeys] at ih
    simp only [digKeys, digKeysNested, keys, List.map_cons, List.filter_append]
    have e : (k :: rest.map Prod.fst).filter pred = [k].filter pred ++ (rest.map Prod.fst).filter pred := by
      rw [← List.filter_append]; rfl
    rw [e]
    refine List.Perm.trans ?_ (ih2.append ih)
    exact List.perm_iff_count.2 (fun a => by simp only [List.count_append]; omega)
end

theorem count_pointers {α} (t : MDict α) (p : Str) (hp : startsWith p c!"^" = true) :
    (pointers t).count p = (keys t).count p := by
  rw [pointers, (digKeys_perm _ t).count_eq, List.count_filter (by simpa using hp)]

theorem mem_distinct (l : List Str) (x : Str) : x ∈ distinct l ↔ x ∈ l := by
  induction l with
  | nil => simp [distinct]
  | cons a l ih =>
    simp only [distinct, List.mem_cons, List.mem_filter, ih, ne_eq, decide_not, Bool.not_eq_true',
      decide_eq_false_iff_not]
    by_cases h : x = a <;> simp [h]

theorem nodup_distinct (l : List Str) : (distinct l).Nodup := by
  induction l with
  | nil => simp [distinct]
  | cons a l ih =>
    rw [distinct, List.nodup_cons]
    exact ⟨by simp, ih.filter _⟩

/-! ### the parameter list -/

theorem map_range'_perm_aux {f : Nat → Str} {i m : Nat} :
    List.map f (List.range' i (m + 1)) = f i :: List.map f (List.range' (i + 1) m) := by
  simp [List.range'_succ]

theorem erase_snoc {ps R : List Str} {p : Str} (x : Str) (h : List.Perm ps (p :: R)) :
    List.Perm ((ps ++ [x]).erase p) (x :: R) := by
  have h1 : List.Perm (ps ++ [x]) (p :: (R ++ [x])) := h.append_right [x]
  have h2 := h1.erase p
  rw [List.erase_cons_head] at h2
  exact h2.trans (List.perm_append_singleton x R)

/-- one turn of the inner loop, on mapping and parameter list -/
theorem indexOnce_true {α} (p : Str) (n ix : Nat) (m : MDict α) (ps : List Str)
    (hp : (keys m).count p ≤ n)
    (hd : (number p 0 (keys m)).count (depointerize p) ≤ n)
    (hne : depointerize p ≠ indexed p ix)
    (c : Nat) (R : List Str)
    (hps : List.Perm ps (p :: (List.replicate c (depointerize p) ++ R)))
    (hR : depointerize p ∉ R) :
    ∃ m' ps', indexOnce p n ix true (m, ps) = .ok (m', ps') ∧ skeleton m' = skeleton m ∧
      keys m' = number (depointerize p) 0 (number p 0 (keys m)) ∧
      List.Perm ps' (indexed p ix :: indexed (depointerize p) ix ::
        (List.replicate (c - 1) (depointerize p) ++ R)) := by
  obtain ⟨m₁, a1, a2, a3⟩ := renameKeys_ok p n m hp
  obtain ⟨m₂, b1, b2, b3⟩ := renameKeys_ok (depointerize p) n m₁ (by rw [a3]; exact hd)
  have hmem : p ∈ ps ++ [indexed p ix] := by
    have : p ∈ ps := hps.mem_iff.2 (by simp)
    simp [this]
  have h1 : List.Perm ((ps ++ [indexed p ix]).erase p)
      (indexed p ix :: (List.replicate c (depointerize p) ++ R)) := erase_snoc _ hps
  set d := depointerize p with hdd
  have hnd : d ≠ indexed d ix := (indexed_ne_self d ix).symm
  simp only [indexOnce, a1, removeFirst, if_pos hmem, ← hdd, b1, if_true]
  refine ⟨m₂, _, rfl, by rw [b2, a2], by rw [b3, a3], ?_⟩
  have h2 : List.Perm ((ps ++ [indexed p ix]).erase p ++ [indexed d ix])
      (indexed p ix :: (List.replicate c d ++ R) ++ [indexed d ix]) := h1.append_right _
  cases c with
  | zero =>
    rw [if_neg]
    · refine h2.trans ?_
      simp only [List.replicate_zero, List.nil_append, List.cons_append]
      exact List.Perm.cons _ (List.perm_append_singleton _ _)
    · rw [h2.mem_iff]; simp [hne, hR, hnd]
  | succ c =>
    rw [if_pos (by rw [h2.mem_iff]; simp [List.replicate_succ])]
    have h3 : List.Perm ((ps ++ [indexed p ix]).erase p)
        (d :: (indexed p ix :: (List.replicate c d ++ R))) := by
      refine h1.trans ?_
      rw [List.replicate_succ, List.cons_append]
      exact List.Perm.swap _ _ _
    refine (erase_snoc (indexed d ix) h3).trans ?_
    simpa using List.Perm.swap _ _ _

/-- one turn of the inner loop, for DESCRIPTION pointers -/
theorem indexOnce_false {α} (p : Str) (n ix : Nat) (m : MDict α) (ps : List Str)
    (hp : (keys m).count p ≤ n) (R : List Str) (hps : List.Perm ps (p :: R)) :
    ∃ m' ps', indexOnce p n ix false (m, ps) = .ok (m', ps') ∧ skeleton m' = skeleton m ∧
      keys m' = number p 0 (keys m) ∧ List.Perm ps' (indexed p ix :: R) := by
  obtain ⟨m₁, a1, a2, a3⟩ := renameKeys_ok p n m hp
  have hmem : p ∈ ps ++ [indexed p ix] := by
    have : p ∈ ps := hps.mem_iff.2 (by simp)
    simp [this]
  refine ⟨m₁, (ps ++ [indexed p ix]).erase p, ?_, a2, a3, erase_snoc _ hps⟩
  simp [indexOnce, a1, removeFirst, hmem]

theorem not_mem_number (P : Str) (i : Nat) (ks : List Str) : P ∉ number P i ks := by
  rw [(number_perm P i ks).mem_iff]
  simp [indexed_ne_self]

theorem mem_number {P x : Str} {i : Nat} {ks : List Str} (h : x ∈ number P i ks) :
    x ∈ ks ∨ ∃ j, x = indexed P j := by
  rw [(number_perm P i ks).mem_iff] at h
  simp only [List.mem_append, List.mem_map, List.mem_filter] at h
  rcases h with ⟨j, -, rfl⟩ | ⟨h, -⟩
  · exact .inr ⟨j, rfl⟩
  · exact .inl h

/-- further turns of the inner loop rename nothing but keep on editing the parameter list -/
theorem indexPointer_true {α} (p : Str) (n : Nat) (ixs : List Nat)
    (hpd : ∀ i, depointerize p ≠ indexed p i) (m : MDict α) (ps : List Str)
    (hp : p ∉ keys m) (hd : depointerize p ∉ keys m)
    (c : Nat) (R : List Str)
    (hps : List.Perm ps (List.replicate ixs.length p ++ (List.replicate c (depointerize p) ++ R)))
    (hc : c ≤ ixs.length) (hR : depointerize p ∉ R)
    (hpdn : depointerize p ≠ p) :
    ∃ m' ps', indexPointer p n true ixs (m, ps) = .ok (m', ps') ∧ skeleton m' = skeleton m ∧
      keys m' = keys m ∧
      List.Perm ps' (ixs.map (indexed p) ++ (ixs.map (indexed (depointerize p)) ++ R)) := by
  induction ixs generalizing m ps c R with
  | nil =>
    refine ⟨m, ps, rfl, rfl, rfl, ?_⟩
    obtain rfl : c = 0 := by simpa using hc
    simpa using hps
  | cons ix ixs ih =>
    set d := depointerize p with hdd
    have hp0 : (keys m).count p = 0 := List.count_eq_zero.2 hp
    have hn : number p 0 (keys m) = keys m := number_id _ _ _ hp
    have hps2 : List.Perm ps (p :: (List.replicate c d ++ (List.replicate ixs.length p ++ R))) := by
      refine hps.trans ?_
      rw [List.length_cons, List.replicate_succ, List.cons_append]
      refine List.Perm.cons _ ?_
      rw [← List.append_assoc, ← List.append_assoc]
      exact (List.perm_append_comm).append_right R
    obtain ⟨m₁, ps₁, a1, a2, a3, a4⟩ := indexOnce_true p n ix m ps (by omega)
      (by rw [hn, List.count_eq_zero.2 hd]; omega) (hpd ix) c _ hps2 (by
        simp only [List.mem_append, List.mem_replicate, not_or, not_and]
        exact ⟨fun _ => hpdn, hR⟩)
    rw [hn, number_id _ _ _ hd] at a3
    rw [← hdd] at a4
    obtain ⟨m₂, ps₂, b1, b2, b3, b4⟩ := ih m₁ ps₁ (by rw [a3]; exact hp) (by rw [a3]; exact hd)
      (c - 1) (indexed p ix :: indexed d ix :: R) (by
        refine a4.trans ?_
        generalize List.replicate (c - 1) d = X
        generalize List.replicate ixs.length p = Y
        exact List.perm_iff_count.2 (fun a => by
          simp only [List.count_append, List.count_cons]; omega))
      (by simp only [List.length_cons] at hc; omega)
      (by simp only [List.mem_cons, not_or]; exact ⟨hpd ix, (indexed_ne_self d ix).symm, hR⟩)
    refine ⟨m₂, ps₂, ?_, by rw [b2, a2], by rw [b3, a3], ?_⟩
    · simp only [indexPointer, a1, b1]
    · refine b4.trans ?_
      simp only [List.map_cons, List.cons_append]
      generalize List.map (indexed p) ixs = X
      generalize List.map (indexed d) ixs = Y
      have h1 : List.Perm (X ++ (Y ++ indexed p ix :: indexed d ix :: R))
          (indexed p ix :: (X ++ (Y ++ indexed d ix :: R))) := by
        have := List.perm_middle (l₁ := X ++ Y) (a := indexed p ix) (l₂ := indexed d ix :: R)
        simpa [List.append_assoc] using this
      refine h1.trans (List.Perm.cons _ ?_)
      exact List.Perm.append_left X List.perm_middle

theorem indexPointer_false {α} (p : Str) (n : Nat) (ixs : List Nat)
    (m : MDict α) (ps : List Str) (hp : p ∉ keys m) (R : List Str)
    (hps : List.Perm ps (List.replicate ixs.length p ++ R)) :
    ∃ m' ps', indexPointer p n false ixs (m, ps) = .ok (m', ps') ∧ skeleton m' = skeleton m ∧
      keys m' = keys m ∧ List.Perm ps' (ixs.map (indexed p) ++ R) := by
  induction ixs generalizing m ps R with
  | nil => exact ⟨m, ps, rfl, rfl, rfl, by simpa using hps⟩
  | cons ix ixs ih =>
    have hn : number p 0 (keys m) = keys m := number_id _ _ _ hp
    obtain ⟨m₁, ps₁, a1, a2, a3, a4⟩ := indexOnce_false p n ix m ps
      (by rw [List.count_eq_zero.2 hp]; omega) (List.replicate ixs.length p ++ R)
      (by simpa [List.replicate_succ] using hps)
    rw [hn] at a3
    obtain ⟨m₂, ps₂, b1, b2, b3, b4⟩ := ih m₁ ps₁ (by rw [a3]; exact hp) (indexed p ix :: R)
      (a4.trans List.perm_middle.symm)
    refine ⟨m₂, ps₂, ?_, by rw [b2, a2], by rw [b3, a3], ?_⟩
    · simp only [indexPointer, a1, b1]
    · exact b4.trans List.perm_middle

theorem range_cons (n : Nat) (h : 0 < n) : List.range n = 0 :: List.range' 1 (n - 1) := by
  rw [List.range_eq_range', range'_pos 0 n h]

theorem indexPointer_all_false {α} (p : Str) (m : MDict α) (ps ex : List Str)
    (hn : 0 < (keys m).count p)
    (hps : List.Perm ps (keys m ++ ex)) :
    ∃ m' ps', indexPointer p ((keys m).count p) false (List.range ((keys m).count p)) (m, ps)
        = .ok (m', ps') ∧ skeleton m' = skeleton m ∧ keys m' = number p 0 (keys m) ∧
      List.Perm ps' (keys m' ++ ex) := by
  set n := (keys m).count p with hnn
  set F := (keys m).filter (· ≠ p) with hF
  have hps2 : List.Perm ps (p :: (List.replicate (n - 1) p ++ (F ++ ex))) := by
    refine (hps.trans ((perm_split p (keys m)).append_right ex)).trans ?_
    rw [← hnn, ← hF, show List.replicate n p = p :: List.replicate (n - 1) p by
      rw [← List.replicate_succ]; congr 1; omega]
    simp
  obtain ⟨m₁, ps₁, a1, a2, a3, a4⟩ := indexOnce_false p n 0 m ps (by omega) _ hps2
  obtain ⟨m₂, ps₂, b1, b2, b3, b4⟩ := indexPointer_false p n (List.range' 1 (n - 1)) m₁ ps₁
    (by rw [a3]; exact not_mem_number _ _ _) (indexed p 0 :: (F ++ ex)) (by
      refine a4.trans ?_
      simpa using List.perm_middle.symm)
  refine ⟨m₂, ps₂, ?_, by rw [b2, a2], by rw [b3, a3], ?_⟩
  · rw [range_cons n hn]; simp only [indexPointer, a1, b1]
  · rw [b3, a3]
    refine b4.trans ?_
    refine List.Perm.trans ?_ ((number_perm p 0 (keys m)).symm.append_right ex)
    rw [← hnn, ← List.range_eq_range', range_cons n hn, List.map_cons, ← hF]
    exact List.perm_iff_count.2 (fun a => by
      simp only [List.count_append, List.count_cons]; omega)

theorem indexPointer_all_true {α} (p : Str) (m : MDict α) (ps ex : List Str)
    (hn : 0 < (keys m).count p) (hd : (keys m).count (depointerize p) ≤ (keys m).count p)
    (hpd : ∀ i, depointerize p ≠ indexed p i) (hpd' : ∀ i, p ≠ indexed (depointerize p) i)
    (hne : depointerize p ≠ p) (hex : depointerize p ∉ ex)
    (hps : List.Perm ps (keys m ++ ex)) :
    ∃ m' ps', indexPointer p ((keys m).count p) true (List.range ((keys m).count p)) (m, ps)
        = .ok (m', ps') ∧ skeleton m' = skeleton m ∧
      keys m' = number (depointerize p) 0 (number p 0 (keys m)) ∧
      List.Perm ps' (keys m' ++ ((List.range' ((keys m).count (depointerize p))
        ((keys m).count p - (keys m).count (depointerize p))).map (indexed (depointerize p)) ++ ex)) := by
  set n := (keys m).count p with hnn
  set d := depointerize p with hdd
  set c := (keys m).count d with hcc
  set F := (keys m).filter (· ≠ p) with hF
  set G := F.filter (· ≠ d) with hG
  have hFc : F.count d = c := by
    rw [hF, List.count_filter (by simpa using hne)]
  have hdG : d ∉ G := by simp [hG]
  have hcnt : (number p 0 (keys m)).count d = c := by
    rw [(number_perm p 0 (keys m)).count_eq, List.count_append, ← hF, hFc]
    have : List.count d (List.map (indexed p) (List.range' 0 (List.count p (keys m)))) = 0 := by
      rw [List.count_eq_zero]
      simp only [List.mem_map, not_exists, not_and]
      intro x _ h; exact hpd x h.symm
    omega
  have hsplit : List.Perm (keys m) (List.replicate n p ++ (List.replicate c d ++ G)) := by
    refine (perm_split p (keys m)).trans ?_
    rw [← hnn, ← hF]
    refine List.Perm.append_left _ ?_
    rw [← hFc]
    exact perm_split d F
  have hps2 : List.Perm ps (p :: (List.replicate c d ++ (List.replicate (n - 1) p ++ (G ++ ex)))) := by
    refine (hps.trans (hsplit.append_right ex)).trans ?_
    rw [show List.replicate n p = p :: List.replicate (n - 1) p by
      rw [← List.replicate_succ]; congr 1; omega]
    exact List.perm_iff_count.2 (fun a => by
      simp only [List.count_append, List.count_cons]; omega)
  obtain ⟨m₁, ps₁, a1, a2, a3, a4⟩ := indexOnce_true p n 0 m ps (by omega)
    (by rw [← hdd]; omega)
    (hpd 0) c _ hps2 (by
      simp only [List.mem_append, List.mem_replicate, not_or, not_and]
      exact ⟨fun _ => hne, hdG, hex⟩)
  rw [← hdd] at a3 a4
  have hp1 : p ∉ keys m₁ := by
    rw [a3]; intro h
    rcases mem_number h with h | ⟨j, h⟩
    · exact not_mem_number _ _ _ h
    · exact hpd' j h
  have hd1 : d ∉ keys m₁ := by rw [a3]; exact not_mem_number _ _ _
  obtain ⟨m₂, ps₂, b1, b2, b3, b4⟩ := indexPointer_true p n (List.range' 1 (n - 1)) hpd m₁ ps₁
    hp1 hd1 (c - 1) (indexed p 0 :: indexed d 0 :: (G ++ ex)) (by
      refine a4.trans ?_
      rw [List.length_range', ← hdd]
      exact List.perm_iff_count.2 (fun a => by
        simp only [List.count_append, List.count_cons]; omega))
    (by rw [List.length_range']; omega)
    (by
      simp only [List.mem_cons, List.mem_append, not_or]
      exact ⟨hpd 0, (indexed_ne_self d 0).symm, hdG, hex⟩) hne
  refine ⟨m₂, ps₂, ?_, by rw [b2, a2], by rw [b3, a3], ?_⟩
  · rw [range_cons n hn]; simp only [indexPointer, a1, b1]
  · rw [b3, a3]
    have k1 : List.Perm (number d 0 (number p 0 (keys m)))
        ((List.range' 0 c).map (indexed d) ++ ((List.range n).map (indexed p) ++ G)) := by
      refine (number_perm d 0 _).trans ?_
      rw [hcnt]
      refine List.Perm.append_left _ ?_
      refine ((number_perm p 0 (keys m)).filter _).trans ?_
      rw [List.filter_append, ← hF, ← hG, ← hnn, ← List.range_eq_range']
      rw [List.filter_eq_self.2]
      intro a ha
      simp only [List.mem_map] at ha
      obtain ⟨x, -, rfl⟩ := ha
      simpa using (hpd x).symm
    refine b4.trans ?_
    refine List.Perm.trans ?_ (k1.symm.append_right _)
    rw [← hdd]
    have k2 : List.map (indexed d) (List.range' 0 c) ++ List.map (indexed d) (List.range' c (n - c))
        = List.map (indexed d) (List.range n) := by
      rw [← List.map_append, List.range_eq_range']
      congr 1
      have := List.range'_append_1 (s := 0) (m := c) (n := n - c)
      simp only [Nat.zero_add] at this
      rw [this]
      congr 1; omega
    rw [range_cons n hn] at k2 ⊢
    refine List.perm_iff_count.2 (fun a => ?_)
    have k4 := congrArg (fun l => List.count a l) k2
    simp only [List.count_append, List.map_cons, List.count_cons] at k4 ⊢
    omega

theorem indexPointer_all_err {α} (p : Str) (m : MDict α) (ps ex : List Str)
    (hn : 0 < (keys m).count p) (hd : (keys m).count p < (keys m).count (depointerize p))
    (hne : depointerize p ≠ p)
    (hps : List.Perm ps (keys m ++ ex)) :
    indexPointer p ((keys m).count p) true (List.range ((keys m).count p)) (m, ps)
        = .error .indexError := by
  have hmem : p ∈ ps := by
    rw [hps.mem_iff]; exact List.mem_append_left _ (List.count_pos_iff.1 hn)
  obtain ⟨m₁, a1, a2, a3⟩ := renameKeys_ok p ((keys m).count p) m (Nat.le_refl _)
  have hc : (keys m).count p < (keys m₁).count (depointerize p) := by
    rw [a3, (number_perm p 0 (keys m)).count_eq, List.count_append,
      List.count_filter (by simpa using hne)]
    omega
  have a4 := renameKeys_err (depointerize p) _ m₁ hc
  rw [range_cons _ hn]
  have hm2 : p ∈ ps ++ [indexed p 0] := by simp [hmem]
  simp only [indexPointer, indexOnce, a1, removeFirst, if_pos hm2, if_true, a4]

/-! ### the outer loop -/

theorem numberAll_congr {T T' : List Str} (h : ∀ x, x ∈ T ↔ x ∈ T') (seen ks : List Str) :
    numberAll T seen ks = numberAll T' seen ks := by
  induction ks generalizing seen with
  | nil => rfl
  | cons k ks ih => simp only [numberAll, ih, h]

theorem depointerize_caret (r : Str) : depointerize ('^' :: r) = r := by
  simp [depointerize, startsWith]

/-- which names a remaining pointer list will still rename -/
def targetsOf (K qs : List Str) : List Str :=
  qs.flatMap (fun q => if Numbered K q then targets q else [])

/-- object definitions of `q` are not more numerous than the pointer -/
def CountOk (K : List Str) (q : Str) : Prop :=
  Numbered K q = true → contains q c!"DESCRIPTION" = false → K.count (q.drop 1) ≤ K.count q

/-- one turn of the outer loop on a numbered pointer -/
theorem indexPointer_step {α} (K : List Str) (r : Str) (T : List Str) (m : MDict α) (ps ex : List Str)
    (hN : Numbered K ('^' :: r) = true)
    (hkeys : keys m = numberAll T [] K) (hps : List.Perm ps (keys m ++ ex))
    (hex : ∀ x ∈ ex, ∃ Q ∈ T, ∃ i, x = indexed Q i)
    (hcol : ∀ x ∈ T ++ targets ('^' :: r), ∀ Q ∈ T ++ targets ('^' :: r), ∀ i, x ≠ indexed Q i)
    (hdis : ∀ x ∈ targets ('^' :: r), x ∉ T) :
    (CountOk K ('^' :: r) → ∃ m₁ ps₁ ex₁,
      indexPointer ('^' :: r) (K.count ('^' :: r)) (!contains ('^' :: r) c!"DESCRIPTION")
        (List.range (K.count ('^' :: r))) (m, ps) = .ok (m₁, ps₁) ∧ skeleton m₁ = skeleton m ∧
      keys m₁ = numberAll (T ++ targets ('^' :: r)) [] K ∧ List.Perm ps₁ (keys m₁ ++ (ex₁ ++ ex)) ∧
      ∀ x ∈ ex₁, contains ('^' :: r) c!"DESCRIPTION" = false ∧ ∃ i, K.count r ≤ i ∧
        i < K.count ('^' :: r) ∧ x = indexed r i) ∧
    (¬ CountOk K ('^' :: r) →
      indexPointer ('^' :: r) (K.count ('^' :: r)) (!contains ('^' :: r) c!"DESCRIPTION")
        (List.range (K.count ('^' :: r))) (m, ps) = .error .indexError) := by
  have hn1 : 1 < K.count ('^' :: r) := by
    simp only [Numbered, Bool.and_eq_true, decide_eq_true_eq] at hN; exact hN.1.1
  have hmemT : ('^' :: r) ∈ targets ('^' :: r) := by unfold targets; split <;> simp
  have hqT : ('^' :: r) ∉ T := hdis _ hmemT
  have hqI : ∀ Q ∈ T, ∀ i, ('^' :: r) ≠ indexed Q i := fun Q hQ i =>
    hcol _ (by simp [hmemT]) _ (by simp [hQ]) i
  have hcq : (keys m).count ('^' :: r) = K.count ('^' :: r) := by
    rw [hkeys, count_numberAll _ _ hqT hqI]
  have hnum : number ('^' :: r) 0 (keys m) = numberAll (('^' :: r) :: T) [] K := by
    rw [hkeys]; simpa using number_numberAll ('^' :: r) T hqT hqI [] K
  cases hD : contains ('^' :: r) c!"DESCRIPTION" with
  | true =>
    have htg : targets ('^' :: r) = ['^' :: r] := by simp [targets, hD]
    refine ⟨fun _ => ?_, fun h => absurd (fun _ h => by rw [hD] at h; cases h) h⟩
    obtain ⟨m₁, ps₁, a1, a2, a3, a4⟩ := indexPointer_all_false ('^' :: r) m ps ex (by omega) hps
    rw [hcq] at a1
    refine ⟨m₁, ps₁, [], a1, a2, ?_, by simpa using a4, by simp⟩
    rw [a3, hnum, htg]
    exact numberAll_congr (by intro x; simp [or_comm]) _ _
  | false =>
    have htg : targets ('^' :: r) = ['^' :: r, r] := by simp [targets, hD]
    have hrm : r ∈ targets ('^' :: r) := by simp [htg]
    have hrT : r ∉ T := hdis _ hrm
    have hrI : ∀ Q ∈ T, ∀ i, r ≠ indexed Q i := fun Q hQ i =>
      hcol _ (by simp [hrm]) _ (by simp [hQ]) i
    have hne : r ≠ '^' :: r := by intro h; have := congrArg List.length h; simp at this
    have hcr : (keys m).count r = K.count r := by
      rw [hkeys, count_numberAll _ _ hrT hrI]
    have hdr : r ∉ ex := by
      intro h; obtain ⟨Q, hQ, i, h2⟩ := hex r h; exact hrI Q hQ i h2
    have hi1 : ∀ i, r ≠ indexed ('^' :: r) i := fun i => hcol _ (by simp [hrm]) _ (by simp [hmemT]) i
    have hi2 : ∀ i, ('^' :: r) ≠ indexed r i := fun i => hcol _ (by simp [hmemT]) _ (by simp [hrm]) i
    constructor
    · intro hc
      have hc' : K.count r ≤ K.count ('^' :: r) := hc hN hD
      obtain ⟨m₁, ps₁, a1, a2, a3, a4⟩ := indexPointer_all_true ('^' :: r) m ps ex (by omega)
        (by rw [depointerize_caret]; omega) (by rwa [depointerize_caret])
        (by rwa [depointerize_caret]) (by rwa [depointerize_caret]) (by rwa [depointerize_caret]) hps
      rw [depointerize_caret] at a3 a4
      rw [hcq] at a1
      refine ⟨m₁, ps₁, _, a1, a2, ?_, a4, ?_⟩
      · have := number_numberAll r (('^' :: r) :: T) (by simp [hne, hrT]) (by
          intro Q hQ i
          rcases List.mem_cons.1 hQ with rfl | hQ
          · exact hi1 i
          · exact hrI Q hQ i) [] K
        rw [a3, hnum, htg]
        refine (by simpa using this : _ = _).trans ?_
        exact numberAll_congr (by intro x; simp only [List.mem_cons, List.mem_append,
          List.not_mem_nil, or_false]; tauto) _ _
      · intro x hx
        rw [hcq, hcr] at hx
        simp only [List.mem_map, List.mem_range'_1] at hx
        obtain ⟨i, hi, rfl⟩ := hx
        exact ⟨rfl, i, hi.1, by omega, rfl⟩
    · intro hc
      have hc' : K.count ('^' :: r) < K.count r := by
        by_contra h
        exact hc (fun _ _ => by simpa using (by omega : K.count r ≤ K.count ('^' :: r)))
      have := indexPointer_all_err ('^' :: r) m ps ex (by omega)
        (by rw [depointerize_caret]; omega) (by rwa [depointerize_caret]) hps
      rw [hcq] at this
      exact this

theorem indexGroups_spec {α} (all K : List Str) (qs : List Str) :
    ∀ (T : List Str) (m : MDict α) (ps ex : List Str),
    (∀ q ∈ qs, ∃ r, q = '^' :: r ∧ all.count q = K.count q) →
    qs.Nodup →
    keys m = numberAll T [] K →
    List.Perm ps (keys m ++ ex) →
    (∀ x ∈ ex, ∃ Q ∈ T, ∃ i, x = indexed Q i) →
    (∀ x ∈ T ++ targetsOf K qs, ∀ Q ∈ T ++ targetsOf K qs, ∀ i, x ≠ indexed Q i) →
    (∀ q ∈ qs, Numbered K q = true → ∀ x ∈ targets q, x ∉ T) →
    (∀ q ∈ qs, ∀ q' ∈ qs, Numbered K q = true → Numbered K q' = true → q ≠ q' →
      ∀ x ∈ targets q, x ∉ targets q') →
    ((∀ q ∈ qs, CountOk K q) →
      ∃ m' ps' ex', indexGroups all qs (m, ps) = .ok (m', ps') ∧ skeleton m' = skeleton m ∧
        keys m' = numberAll (T ++ targetsOf K qs) [] K ∧ List.Perm ps' (keys m' ++ ex') ∧
        (∀ x ∈ ex', x ∈ ex ∨ ∃ q ∈ qs, Numbered K q = true ∧ contains q c!"DESCRIPTION" = false ∧
          ∃ i, K.count (q.drop 1) ≤ i ∧ i < K.count q ∧ x = indexed (q.drop 1) i)) ∧
    ((∃ q ∈ qs, ¬ CountOk K q) → indexGroups all qs (m, ps) = .error .indexError) := by
  induction qs with
  | nil =>
    intro T m ps ex _ _ hkeys hps _ _ _ _
    refine ⟨fun _ => ⟨m, ps, ex, rfl, rfl, by simpa [targetsOf] using hkeys, hps, fun x hx => .inl hx⟩, ?_⟩
    simp
  | cons q qs ih =>
    intro T m ps ex hq hnd hkeys hps hex hcol hdis hcross
    obtain ⟨r, rfl, hall⟩ := hq q (by simp)
    have hnd' := List.nodup_cons.1 hnd
    have hguard : (decide (K.count ('^' :: r) > 1) && !(contains ('^' :: r) c!"STRUCTURE" ||
        contains ('^' :: r) c!"PDS_OBJECT")) = Numbered K ('^' :: r) := by
      simp only [Numbered, Bool.not_or, Bool.and_assoc, gt_iff_lt]
    by_cases hN : Numbered K ('^' :: r) = true
    · have hT : targetsOf K (('^' :: r) :: qs) = targets ('^' :: r) ++ targetsOf K qs := by
        simp [targetsOf, hN]
      rw [hT] at hcol ⊢
      obtain ⟨sOk, sErr⟩ := indexPointer_step K r T m ps ex hN hkeys hps hex
        (fun x hx Q hQ => hcol x (by
          simp only [List.mem_append] at hx ⊢; tauto) Q (by simp only [List.mem_append] at hQ ⊢; tauto))
        (hdis _ (by simp) hN)
      by_cases hc : CountOk K ('^' :: r)
      · obtain ⟨m₁, ps₁, ex₁, a1, a2, a3, a4, a5⟩ := sOk hc
        have hstep : indexGroups all (('^' :: r) :: qs) (m, ps) = indexGroups all qs (m₁, ps₁) := by
          rw [indexGroups]; simp only [hguard, hN, if_true, hall, a1]
        have IH := ih (T ++ targets ('^' :: r)) m₁ ps₁ (ex₁ ++ ex)
          (fun x hx => hq x (by simp [hx])) hnd'.2 a3 a4
          (fun x hx => by
            rcases List.mem_append.1 hx with hx | hx
            · obtain ⟨h1, i, _, _, h2⟩ := a5 x hx
              exact ⟨r, by simp [targets, h1], i, h2⟩
            · obtain ⟨Q, h1, h2⟩ := hex x hx; exact ⟨Q, by simp [h1], h2⟩)
          (fun x hx Q hQ => hcol x (by simpa [List.append_assoc] using hx) Q
            (by simpa [List.append_assoc] using hQ))
          (by
            intro q' hq' hN' x hx
            rw [List.mem_append, not_or]
            exact ⟨hdis q' (by simp [hq']) hN' x hx, hcross q' (by simp [hq']) _ (by simp) hN' hN
                (by rintro rfl; exact hnd'.1 hq') _ hx⟩)
          (fun q₁ h1 q₂ h2 => hcross q₁ (by simp [h1]) q₂ (by simp [h2]))
        rw [hstep]
        constructor
        · intro hall'
          obtain ⟨m', ps', ex', b1, b2, b3, b4, b5⟩ := IH.1 (fun q hq => hall' q (by simp [hq]))
          refine ⟨m', ps', ex', b1, by rw [b2, a2], by rw [b3, List.append_assoc], b4, ?_⟩
          intro x hx
          rcases b5 x hx with h | ⟨q, h1, h2⟩
          · rcases List.mem_append.1 h with h | h
            · obtain ⟨h1, i, h2, h3, h4⟩ := a5 x h
              exact .inr ⟨_, by simp, hN, h1, i, h2, h3, h4⟩
            · exact .inl h
          · exact .inr ⟨q, by simp [h1], h2⟩
        · rintro ⟨q', hq', hbad⟩
          rcases List.mem_cons.1 hq' with rfl | hq'
          · exact absurd hc hbad
          · exact IH.2 ⟨q', hq', hbad⟩
      · have := sErr hc
        constructor
        · intro h; exact absurd (h _ (by simp)) hc
        · intro _
          rw [indexGroups]; simp only [hguard, hN, if_true, hall, this]
    · have hN2 : Numbered K ('^' :: r) = false := by simpa using hN
      have hT : targetsOf K (('^' :: r) :: qs) = targetsOf K qs := by
        simp [targetsOf, hN2]
      rw [hT] at hcol ⊢
      have hstep : indexGroups all (('^' :: r) :: qs) (m, ps) = indexGroups all qs (m, ps) := by
        rw [indexGroups]; simp only [hall, hguard, hN2]; rfl
      have hcok : CountOk K ('^' :: r) := fun h => absurd h hN
      have IH := ih T m ps ex (fun x hx => hq x (by simp [hx])) hnd'.2 hkeys hps hex hcol
        (fun q' h => hdis q' (by simp [h])) (fun q₁ h1 q₂ h2 => hcross q₁ (by simp [h1]) q₂ (by simp [h2]))
      rw [hstep]
      constructor
      · intro h
        obtain ⟨m', ps', ex', b1, b2, b3, b4, b5⟩ := IH.1 (fun q hq => h q (by simp [hq]))
        refine ⟨m', ps', ex', b1, b2, b3, b4, ?_⟩
        intro x hx
        rcases b5 x hx with h | ⟨q, h1, h2⟩
        · exact .inl h
        · exact .inr ⟨q, by simp [h1], h2⟩
      · rintro ⟨q', hq', hbad⟩
        rcases List.mem_cons.1 hq' with rfl | hq'
        · exact absurd hcok hbad
        · exact IH.2 ⟨q', hq', hbad⟩

end Verif.Pvl
