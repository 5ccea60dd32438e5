/-
C51: `multidict_dig_and_edit` changes the matching entries and nothing else.
-/
import Verif.Spec.Edit

namespace Verif.Pvl
open Verif.Py Spec

/-- the editor that replaces a value by `f value` (a setter without side effects) -/
def pureValue {α : Type} (f : Tree α → Tree α) : Edit α Unit := .value (fun s v => .ok (f v, s))

/-- the editor that replaces a key by `f key` (a setter without side effects) -/
def pureKey {α : Type} (f : Str → Str) : Edit α Unit := .key (fun s k => .ok (f k, s))

section
variable {α : Type}

/-! ### values -/

theorem params_path_ne (t : MDict α) (p) (hp : p ∈ params t) : p.1 ≠ [] := by
  match t with
  | [] => simp [params] at hp
  | (k, .leaf a) :: rest =>
    simp [params, paramsT] at hp
    rcases hp with rfl | hp
    · simp
    · exact params_path_ne rest p hp
  | (k, .node kids) :: rest =>
    simp [params, paramsT] at hp
    rcases hp with ⟨_, _, _, rfl⟩ | hp
    · simp
    · exact params_path_ne rest p hp
termination_by sizeOf t

theorem getLastD_cons_params {t : MDict α} {p} (hp : p ∈ params t) (k d : Str) :
    (k :: p.1).getLastD d = p.1.getLastD d := by
  obtain ⟨l, ls, hl⟩ := List.exists_cons_of_ne_nil (params_path_ne t p hp)
  simp [hl]

theorem edit_value_keep (pred : Str → Tree α → Bool) (f : Tree α → Tree α) (g : Str → α → α)
    (hnode : ∀ k kids, pred k (.node kids) = false)
    (hg : ∀ k a, g k a = if pred k (.leaf a) then (match f (.leaf a) with | .leaf b => b | _ => a) else a)
    (hf : ∀ a, ∃ b, f (.leaf a) = .leaf b) (t : MDict α) :
    ∃ t', digEdit pred (pureValue f) true t () = .ok (t', ()) ∧
      params t' = (params t).map (fun p => (p.1, g (p.1.getLastD []) p.2)) ∧ blocks t' = blocks t := by
  match t with
  | [] => exact ⟨[], by simp [digEdit], by simp [params], rfl⟩
  | (k, .leaf a) :: rest =>
    obtain ⟨r, h1, h2, h3⟩ := edit_value_keep pred f g hnode hg hf rest
    obtain ⟨b, hb⟩ := hf a
    cases hp : pred k (.leaf a) with
    | false =>
      refine ⟨(k, .leaf a) :: r, by simp [digEdit, digEditT, hp, h1], ?_, ?_⟩
      · have := hg k a
        simp [params, paramsT, h2, this, hp]
      · simp [blocks, blocksT, h3]
    | true =>
      refine ⟨(k, .leaf b) :: r, by simp [digEdit, digEditT, hp, pureValue, hb]; simp [pureValue] at h1; simp [h1], ?_, ?_⟩
      · have := hg k a
        simp [params, paramsT, h2, this, hp, hb]
      · simp [blocks, blocksT, h3]
  | (k, .node kids) :: rest =>
    obtain ⟨r, h1, h2, h3⟩ := edit_value_keep pred f g hnode hg hf rest
    obtain ⟨q, g1, g2, g3⟩ := edit_value_keep pred f g hnode hg hf kids
    refine ⟨(k, .node q) :: r, by simp [digEdit, digEditT, g1, hnode, h1], ?_, ?_⟩
    · simp only [params, paramsT, h2, g2, List.map_append, List.map_map]
      congr 1
      apply List.map_congr_left
      intro p hp
      have : p.1 ≠ [] := params_path_ne kids p hp
      obtain ⟨l, hl⟩ := List.exists_cons_of_ne_nil this
      obtain ⟨ls, hl⟩ := hl
      simp [hl]
    · simp [blocks, blocksT, h3, g3]
termination_by sizeOf t

/-- **C51.** Editing values with a predicate that looks at parameters: every parameter of the result
stands at its old path and in its old place, the matching ones with the edited value and the others
unchanged; the blocks are the same. -/
theorem C51_values_edited_in_place (pred : Str → Tree α → Bool) (f : α → α)
    (hnode : ∀ k kids, pred k (.node kids) = false) (t : MDict α) :
    ∃ t', digEdit pred (pureValue (fun v => match v with | .leaf a => .leaf (f a) | v => v)) true t ()
        = .ok (t', ()) ∧
      params t' = (params t).map
        (fun p => if pred (p.1.getLastD []) (.leaf p.2) then (p.1, f p.2) else p) ∧
      blocks t' = blocks t := by
  obtain ⟨t', h1, h2, h3⟩ := edit_value_keep pred (fun v => match v with | .leaf a => .leaf (f a) | v => v)
    (fun k a => if pred k (.leaf a) then f a else a) hnode (by intro k a; rfl) (fun a => ⟨f a, rfl⟩) t
  refine ⟨t', h1, ?_, h3⟩
  rw [h2]
  apply List.map_congr_left
  intro p _
  split <;> rfl

/-- **C51.** With `keep_values=False` the same edit acts as a filter: exactly the matching parameters
are left (edited, in order, at their paths), and every block is still there, if need be empty. -/
theorem C51_values_filtered (pred : Str → Tree α → Bool) (f : α → α)
    (hnode : ∀ k kids, pred k (.node kids) = false) (t : MDict α) :
    ∃ t', digEdit pred (pureValue (fun v => match v with | .leaf a => .leaf (f a) | v => v)) false t ()
        = .ok (t', ()) ∧
      params t' = ((params t).filter (fun p => pred (p.1.getLastD []) (.leaf p.2))).map
        (fun p => (p.1, f p.2)) ∧
      blocks t' = blocks t := by
  match t with
  | [] => exact ⟨[], by simp [digEdit], by simp [params], rfl⟩
  | (k, .leaf a) :: rest =>
    obtain ⟨r, h1, h2, h3⟩ := C51_values_filtered pred f hnode rest
    cases hp : pred k (.leaf a) with
    | false =>
      refine ⟨r, by simp [digEdit, digEditT, hp, h1, Tree.isNode], ?_, ?_⟩
      · simp [params, paramsT, h2, hp]
      · simp [blocks, blocksT, h3]
    | true =>
      refine ⟨(k, .leaf (f a)) :: r, ?_, ?_, ?_⟩
      · simp only [pureValue] at h1
        simp [digEdit, digEditT, hp, pureValue, h1]
      · simp [params, paramsT, h2, hp]
      · simp [blocks, blocksT, h3]
  | (k, .node kids) :: rest =>
    obtain ⟨r, h1, h2, h3⟩ := C51_values_filtered pred f hnode rest
    obtain ⟨q, g1, g2, g3⟩ := C51_values_filtered pred f hnode kids
    refine ⟨(k, .node q) :: r, by simp [digEdit, digEditT, g1, hnode, h1, Tree.isNode], ?_, ?_⟩
    · simp only [params, paramsT, h2, g2, List.map_append, List.map_map, List.filter_append, List.filter_map]
      congr 1
      have : (params kids).filter ((fun p : List Str × α => pred (p.1.getLastD []) (.leaf p.2)) ∘
            (fun p => (k :: p.1, p.2))) =
          (params kids).filter (fun p => pred (p.1.getLastD []) (.leaf p.2)) := by
        apply List.filter_congr
        intro p hp
        simp only [Function.comp]
        rw [getLastD_cons_params hp]
      rw [this]; rfl
    · simp [blocks, blocksT, h3, g3]
termination_by sizeOf t

/-! ### keys -/

/-- **C51.** Editing keys: every parameter keeps its value and its place, and on its path exactly the
matching keys are replaced. -/
theorem C51_keys_edited_in_place (pk : Str → Bool) (f : Str → Str) (t : MDict α) :
    ∃ t', digEdit (fun k _ => pk k) (pureKey f) true t () = .ok (t', ()) ∧
      params t' = (params t).map (fun p => (p.1.map (fun k => if pk k then f k else k), p.2)) ∧
      blocks t' = (blocks t).map (fun b => b.map (fun k => if pk k then f k else k)) := by
  match t with
  | [] => exact ⟨[], by simp [digEdit], by simp [params], rfl⟩
  | (k, .leaf a) :: rest =>
    obtain ⟨r, h1, h2, h3⟩ := C51_keys_edited_in_place pk f rest
    simp only [pureKey] at h1
    refine ⟨(if pk k then f k else k, .leaf a) :: r, ?_, ?_, ?_⟩
    · cases hp : pk k <;> simp [digEdit, digEditT, hp, pureKey, h1]
    · simp [params, paramsT, h2]
    · simp [blocks, blocksT, h3]
  | (k, .node kids) :: rest =>
    obtain ⟨r, h1, h2, h3⟩ := C51_keys_edited_in_place pk f rest
    obtain ⟨q, g1, g2, g3⟩ := C51_keys_edited_in_place pk f kids
    simp only [pureKey] at h1 g1
    refine ⟨(if pk k then f k else k, .node q) :: r, ?_, ?_, ?_⟩
    · cases hp : pk k <;> simp [digEdit, digEditT, hp, pureKey, h1, g1]
    · simp [params, paramsT, h2, g2, Function.comp_def]
    · simp [blocks, blocksT, h3, g3, Function.comp_def]
termination_by sizeOf t

/-- the editor that replaces a parameter's value by `h value`, which may fail -/
def tryValue (h : α → Except PyErr α) : Edit α Unit := .value (fun s v => match v with
  | .leaf a => match h a with
    | .ok b => .ok (.leaf b, s)
    | .error e => .error e
  | v => .ok (v, s))

/-- **C51.** A setter that fails on any matching parameter, however deep, makes the whole edit fail:
no half-edited mapping is ever returned. -/
theorem C51_failure_is_total (pred : Str → Tree α → Bool) (h : α → Except PyErr α) (keep : Bool)
    (t : MDict α)
    (hbad : ∃ p ∈ params t, pred (p.1.getLastD []) (.leaf p.2) = true ∧ ∃ e, h p.2 = .error e) :
    ∃ e, digEdit pred (tryValue h) keep t () = .error e := by
  match t with
  | [] => simp [params] at hbad
  | (k, .leaf a) :: rest =>
    obtain ⟨p, hp, h1, e, h2⟩ := hbad
    simp only [params, paramsT, List.cons_append, List.nil_append, List.mem_cons] at hp
    rcases hp with rfl | hp
    · exact ⟨e, by simp at h1; simp [digEdit, digEditT, h1, tryValue, h2]⟩
    · obtain ⟨e', he'⟩ := C51_failure_is_total pred h keep rest ⟨p, hp, h1, e, h2⟩
      simp only [tryValue] at he'
      cases hq : pred k (.leaf a) with
      | false => exact ⟨e', by simp [digEdit, digEditT, hq, tryValue, he']⟩
      | true =>
        cases ha : h a with
        | error e => exact ⟨e, by simp [digEdit, digEditT, hq, tryValue, ha]⟩
        | ok b => exact ⟨e', by simp [digEdit, digEditT, hq, tryValue, ha, he']⟩
  | (k, .node kids) :: rest =>
    obtain ⟨p, hp, h1, e, h2⟩ := hbad
    simp only [params, paramsT, List.mem_append, List.mem_map] at hp
    rcases hp with ⟨q, hq, rfl⟩ | hp
    · rw [getLastD_cons_params hq] at h1
      obtain ⟨e', he'⟩ := C51_failure_is_total pred h keep kids ⟨q, hq, h1, e, h2⟩
      exact ⟨e', by simp [digEdit, digEditT, he']⟩
    · obtain ⟨e', he'⟩ := C51_failure_is_total pred h keep rest ⟨p, hp, h1, e, h2⟩
      cases hk : digEdit pred (tryValue h) keep kids () with
      | error e => exact ⟨e, by simp [digEdit, digEditT, hk]⟩
      | ok r =>
        obtain ⟨q, u⟩ := r
        cases hq : pred k (.node q) with
        | false => exact ⟨e', by simp [digEdit, digEditT, hk, hq, he']⟩
        | true =>
          simp only [tryValue] at he' hk
          exact ⟨e', by simp [digEdit, digEditT, hk, hq, tryValue, he']⟩
termination_by sizeOf t

end

/-! ### the hypotheses can be met -/

/-- a block between two parameters, one of them matching at both levels -/
def editSample : MDict Nat :=
  [(c!"A", .leaf 1), (c!"B", .node [(c!"A", .leaf 2), (c!"C", .leaf 3)]), (c!"C", .leaf 4)]

example : digEdit (fun k v => k == c!"A" && !v.isNode)
    (pureValue (fun v => match v with | .leaf a => .leaf (a + 10) | v => v)) false editSample () =
    .ok ([(c!"A", .leaf 11), (c!"B", .node [(c!"A", .leaf 12)])], ()) := rfl

example : params editSample =
    [([c!"A"], 1), ([c!"B", c!"A"], 2), ([c!"B", c!"C"], 3), ([c!"C"], 4)] := rfl

end Verif.Pvl
