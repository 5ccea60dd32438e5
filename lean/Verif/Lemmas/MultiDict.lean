import Verif.Spec.MultiDict
import Verif.Lemmas.Pvl

namespace Verif.Pvl
open Verif.Py Spec

/-! ### literalisation -/

@[simp] theorem isNode_leaf {α} (a : α) : (Tree.leaf a).isNode = false := rfl
@[simp] theorem isNode_node {α} (a : MDict α) : (Tree.node a).isNode = true := rfl

section
variable {α : Type} (f : α → Except PyErr α) (g : α → α)

/-- what `litEdit` does -/
theorem digEdit_lit_leaf (k : Str) (a : α) (rest : MDict α) :
    digEdit (fun _ v => !v.isNode) (litEdit f) true ((k, .leaf a) :: rest) () =
      match f a with
      | .error e => .error e
      | .ok b => match digEdit (fun _ v => !v.isNode) (litEdit f) true rest () with
        | .error e => .error e
        | .ok (r, s) => .ok ((k, .leaf b) :: r, s) := by
  cases h : f a <;> simp only [digEdit, digEditT, isNode_leaf, litEdit, h] <;>
    rw [if_neg (by simp)]
  generalize digEdit _ _ _ rest () = x
  cases x <;> rfl

mutual
theorem litT_ok (t : Tree α) (h : ∀ a ∈ leavesT t, f a = .ok (g a)) :
    digEditT (fun _ v => !v.isNode) (litEdit f) true t () =
      .ok (match t with | .leaf a => .leaf a | .node kids => .node (mapLeaves g kids), ()) := by
  match t with
  | .leaf a => simp [digEditT]
  | .node kids =>
    have := lit_ok kids (by simpa [leavesT] using h)
    simp [digEditT, this]
theorem lit_ok (t : MDict α) (h : ∀ a ∈ leaves t, f a = .ok (g a)) :
    digEdit (fun _ v => !v.isNode) (litEdit f) true t () = .ok (mapLeaves g t, ()) := by
  match t with
  | [] => simp [digEdit, mapLeaves]
  | (k, .leaf a) :: rest =>
    have h1 := lit_ok rest (fun x hx => h x (by simp [leaves, hx]))
    have h2 := h a (by simp [leaves, leavesT])
    rw [digEdit_lit_leaf, h2]; simp only [h1, mapLeaves, mapLeavesT]
  | (k, .node kids) :: rest =>
    have h1 := lit_ok rest (fun x hx => h x (by simp [leaves, hx]))
    have h2 := lit_ok kids (fun x hx => h x (by simp [leaves, leavesT, hx]))
    simp [digEdit, digEditT, h2, mapLeaves, mapLeavesT, h1]
end

mutual
theorem lit_err (t : MDict α) (h : ∃ a ∈ leaves t, ∃ e, f a = .error e) :
    ∃ e, digEdit (fun _ v => !v.isNode) (litEdit f) true t () = .error e := by
  match t with
  | [] => simp [leaves] at h
  | (k, .leaf a) :: rest =>
    cases hf : f a with
    | error e => exact ⟨e, by rw [digEdit_lit_leaf, hf]⟩
    | ok b =>
      have : ∃ a ∈ leaves rest, ∃ e, f a = .error e := by
        obtain ⟨x, hx, e, he⟩ := h
        simp only [leaves, leavesT, List.singleton_append, List.mem_cons] at hx
        rcases hx with rfl | hx
        · rw [hf] at he; cases he
        · exact ⟨x, hx, e, he⟩
      obtain ⟨e, he⟩ := lit_err rest this
      refine ⟨e, ?_⟩
      rw [digEdit_lit_leaf, hf]; simp only [he]
  | (k, .node kids) :: rest =>
    cases hk : digEdit (fun _ v => !v.isNode) (litEdit f) true kids () with
    | error e => exact ⟨e, by simp [digEdit, digEditT, hk]⟩
    | ok r =>
      have : ∃ a ∈ leaves rest, ∃ e, f a = .error e := by
        obtain ⟨x, hx, e, he⟩ := h
        simp only [leaves, leavesT, List.mem_append] at hx
        rcases hx with hx | hx
        · obtain ⟨e', he'⟩ := lit_err kids ⟨x, hx, e, he⟩
          rw [he'] at hk; cases hk
        · exact ⟨x, hx, e, he⟩
      obtain ⟨e, he⟩ := lit_err rest this
      exact ⟨e, by simp [digEdit, digEditT, hk, he]⟩
end
end

mutual
theorem keys_mapLeavesT {α β} (g : α → β) (k : Str) (t : Tree α) :
    keysT k (mapLeavesT g t) = keysT k t := by
  match t with
  | .leaf a => simp [mapLeavesT, keysT]
  | .node kids => simp [mapLeavesT, keysT, keys_mapLeaves g kids]
theorem keys_mapLeaves {α β} (g : α → β) (t : MDict α) : keys (mapLeaves g t) = keys t := by
  match t with
  | [] => simp [mapLeaves, keys]
  | (k, t) :: rest => simp [mapLeaves, keys, keys_mapLeavesT g k t, keys_mapLeaves g rest]
end

mutual
theorem leaves_mapLeavesT {α β} (g : α → β) (t : Tree α) :
    leavesT (mapLeavesT g t) = (leavesT t).map g := by
  match t with
  | .leaf a => simp [mapLeavesT, leavesT]
  | .node kids => simp [mapLeavesT, leavesT, leaves_mapLeaves g kids]
theorem leaves_mapLeaves {α β} (g : α → β) (t : MDict α) :
    leaves (mapLeaves g t) = (leaves t).map g := by
  match t with
  | [] => simp [mapLeaves, leaves]
  | (k, t) :: rest => simp [mapLeaves, leaves, leaves_mapLeavesT g t, leaves_mapLeaves g rest]
end

/-! ### renaming -/

theorem number_append (P : Str) (i : Nat) (a b : List Str) :
    number P i (a ++ b) = number P i a ++ number P (i + a.count P) b := by
  induction a generalizing i with
  | nil => simp [number]
  | cons x a ih =>
    by_cases h : x = P
    · subst h
      simp only [List.cons_append, number, if_pos, ih, List.count_cons_self]
      simp [Nat.add_assoc, Nat.add_comm 1]
    · simp only [List.cons_append, number, if_neg h, ih, List.count_cons_of_ne h]

theorem range'_pos (i m : Nat) (h : 0 < m) :
    List.range' i m = i :: List.range' (i + 1) (m - 1) := by
  cases m with
  | zero => omega
  | succ m => simp [List.range'_succ]

section
variable {α : Type} (P : Str)

/-- the rename edit -/
abbrev renEdit : Edit α (List Nat) := .key setKeyIndex

mutual
theorem ren_okT (t : Tree α) (i m : Nat) (k : Str) (h : ((keysT k t).dropLast).count P ≤ m) :
    ∃ t', digEditT (fun k _ => k == P) renEdit true t (List.range' i m) =
        .ok (t', List.range' (i + (keysT k t).dropLast.count P) (m - (keysT k t).dropLast.count P))
      ∧ skeletonT t' = skeletonT t ∧ (∀ k', (keysT k' t').dropLast = number P i (keysT k t).dropLast) ∧
      t'.isNode = t.isNode := by
  match t with
  | .leaf a =>
    exact ⟨.leaf a, by simp [digEditT, keysT], rfl, by simp [keysT, number], rfl⟩
  | .node kids =>
    have hk : (keysT k (.node kids)).dropLast = keys kids := by simp [keysT]
    rw [hk] at h ⊢
    obtain ⟨t', h1, h2, h3⟩ := ren_ok kids i m h
    exact ⟨.node t', by simp [digEditT, h1], by simp [skeletonT, h2],
      by intro k'; simp [keysT, h3], rfl⟩
theorem ren_ok (t : MDict α) (i m : Nat) (h : (keys t).count P ≤ m) :
    ∃ t', digEdit (fun k _ => k == P) renEdit true t (List.range' i m) =
        .ok (t', List.range' (i + (keys t).count P) (m - (keys t).count P))
      ∧ skeleton t' = skeleton t ∧ keys t' = number P i (keys t) := by
  match t with
  | [] => exact ⟨[], by simp [digEdit, keys], rfl, by simp [keys, number]⟩
  | (k, v) :: rest =>
    have hkv : ∀ (k : Str) (v : Tree α), keysT k v = (keysT k v).dropLast ++ [k] := by
      intro k v; cases v <;> simp [keysT]
    have hc : (keys ((k, v) :: rest)) = (keysT k v).dropLast ++ ([k] ++ keys rest) := by
      rw [keys, hkv k v]; simp
    rw [hc] at h ⊢
    simp only [List.count_append] at h ⊢
    obtain ⟨v', e1, e2, e3, e4⟩ := ren_okT v i m k (by omega)
    by_cases hk : k = P
    · have hcount : List.count P [k] = 1 := by simp [hk]
      rw [hcount] at h ⊢
      have hr : List.range' (i + (keysT k v).dropLast.count P) (m - (keysT k v).dropLast.count P)
          = (i + (keysT k v).dropLast.count P) ::
            List.range' (i + (keysT k v).dropLast.count P + 1) (m - (keysT k v).dropLast.count P - 1) :=
          range'_pos _ _ (by omega)
      obtain ⟨r', f1, f2, f3⟩ := ren_ok rest (i + (keysT k v).dropLast.count P + 1)
        (m - (keysT k v).dropLast.count P - 1) (by omega)
      refine ⟨(indexed k (i + (keysT k v).dropLast.count P), v') :: r', ?_, ?_, ?_⟩
      · simp only [digEdit, e1, hr]
        rw [if_neg (by simp [hk])]
        simp only [setKeyIndex, f1]
        congr 2
        congr 1 <;> omega
      · simp [skeleton, e2, f2]
      · rw [keys, hkv, e3, f3, number_append, number_append, hcount]
        simp [number, hk, indexed, natStr]
    · have hcount : List.count P [k] = 0 := by simp [hk]
      rw [hcount] at h ⊢
      obtain ⟨r', f1, f2, f3⟩ := ren_ok rest (i + (keysT k v).dropLast.count P)
        (m - (keysT k v).dropLast.count P) (by omega)
      refine ⟨(k, v') :: r', ?_, ?_, ?_⟩
      · simp only [digEdit, e1]
        rw [if_pos (by simp [hk])]
        simp only [f1, Bool.true_or, if_true]
        congr 2
        congr 1 <;> omega
      · simp [skeleton, e2, f2]
      · rw [keys, hkv, e3, f3, number_append, number_append, hcount]
        simp [number, hk]
end

mutual
theorem ren_errT (t : Tree α) (i m : Nat) (k : Str) (h : m < ((keysT k t).dropLast).count P) :
    digEditT (fun k _ => k == P) renEdit true t (List.range' i m) = .error .indexError := by
  match t with
  | .leaf a => simp [keysT] at h
  | .node kids =>
    have hk : (keysT k (.node kids)).dropLast = keys kids := by simp [keysT]
    rw [hk] at h
    simp [digEditT, ren_err kids i m h]
theorem ren_err (t : MDict α) (i m : Nat) (h : m < (keys t).count P) :
    digEdit (fun k _ => k == P) renEdit true t (List.range' i m) = .error .indexError := by
  match t with
  | [] => simp [keys] at h
  | (k, v) :: rest =>
    have hkv : ∀ (k : Str) (v : Tree α), keysT k v = (keysT k v).dropLast ++ [k] := by
      intro k v; cases v <;> simp [keysT]
    have hc : (keys ((k, v) :: rest)) = (keysT k v).dropLast ++ ([k] ++ keys rest) := by
      rw [keys, hkv k v]; simp
    rw [hc] at h
    simp only [List.count_append] at h
    by_cases hv : m < (keysT k v).dropLast.count P
    · simp [digEdit, ren_errT v i m k hv]
    · obtain ⟨v', e1, -, -, -⟩ := ren_okT P v i m k (by omega)
      simp only [digEdit, e1]
      by_cases hk : k = P
      · have hcount : List.count P [k] = 1 := by simp [hk]
        rw [hcount] at h
        rw [if_neg (by simp [hk])]
        by_cases hz : m - (keysT k v).dropLast.count P = 0
        · simp [hz, setKeyIndex]
        · have hr : List.range' (i + (keysT k v).dropLast.count P) (m - (keysT k v).dropLast.count P)
              = (i + (keysT k v).dropLast.count P) ::
              List.range' (i + (keysT k v).dropLast.count P + 1) (m - (keysT k v).dropLast.count P - 1) :=
          range'_pos _ _ (by omega)
          simp only [hr, setKeyIndex]
          rw [ren_err rest _ _ (by omega)]
      · have hcount : List.count P [k] = 0 := by simp [hk]
        rw [hcount] at h
        rw [if_pos (by simp [hk])]
        rw [ren_err rest _ _ (by omega)]
end
end

theorem renameKeys_ok {α} (P : Str) (n : Nat) (t : MDict α) (h : (keys t).count P ≤ n) :
    ∃ t', renameKeys P n t = .ok t' ∧ skeleton t' = skeleton t ∧ keys t' = number P 0 (keys t) := by
  obtain ⟨t', h1, h2, h3⟩ := ren_ok P t 0 n h
  refine ⟨t', ?_, h2, h3⟩
  unfold renameKeys
  rw [List.range_eq_range', h1]

theorem renameKeys_err {α} (P : Str) (n : Nat) (t : MDict α) (h : n < (keys t).count P) :
    renameKeys P n t = .error .indexError := by
  unfold renameKeys
  rw [List.range_eq_range', ren_err P t 0 n h]

end Verif.Pvl
