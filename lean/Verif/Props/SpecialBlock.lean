/-
Corrections of definitions: which of them may be made again.
-/
import Verif.Props.Special
import Verif.Props.Locate
import Mathlib.Tactic.Ring
import Mathlib.Logic.Function.Iterate

namespace Verif.Special
open Verif.Py Verif.Locate Verif.Special.Spec

/-! ### keys -/

/-- the entries of a key -/
def entries (b : Block) (k : Str) : Block := b.filter (fun e => e.1 == k)

theorem entries_set (b : Block) (k : Str) (v : Pvl.Tree Val) : entries (setKey b k v) k = [(k, v)] := by
  induction b with
  | nil => simp [setKey, entries]
  | cons e rest ih =>
    obtain ⟨k', x⟩ := e
    by_cases h : k' = k
    · simp only [setKey, if_pos h, entries, List.filter_cons, beq_self_eq_true, if_true, List.filter_filter]
      congr 1
      rw [List.filter_eq_nil_iff]
      intro e _
      simp
    · have : (k' == k) = false := beq_eq_false_iff_ne.2 h
      simp only [setKey, if_neg h, entries, List.filter_cons, this, Bool.false_eq_true, if_false]
      exact ih

theorem entries_set_other (b : Block) {k k' : Str} (h : k ≠ k') (v : Pvl.Tree Val) :
    entries (setKey b k' v) k = entries b k := by
  induction b with
  | nil => simp [setKey, entries, h.symm]
  | cons e rest ih =>
    obtain ⟨j, x⟩ := e
    by_cases hj : j = k'
    · have h1 : (k' == k) = false := beq_eq_false_iff_ne.2 h.symm
      have h2 : (j == k) = false := beq_eq_false_iff_ne.2 (hj ▸ h.symm)
      simp only [setKey, if_pos hj, entries, List.filter_cons, h1, h2, Bool.false_eq_true, if_false, List.filter_filter]
      refine List.filter_congr (fun e _ => ?_)
      by_cases he : e.1 = k <;> simp [he, h]
    · simp only [setKey, if_neg hj, entries, List.filter_cons]
      rw [show List.filter (fun e => e.1 == k) (setKey rest k' v) = List.filter (fun e => e.1 == k) rest from ih]

theorem set_of_entries {b : Block} {k : Str} {v : Pvl.Tree Val} (h : entries b k = [(k, v)]) : setKey b k v = b := by
  induction b with
  | nil => simp [entries] at h
  | cons e rest ih =>
    obtain ⟨k', x⟩ := e
    by_cases hk : k' = k
    · subst hk
      simp only [entries, List.filter_cons, beq_self_eq_true, if_true, List.cons.injEq, Prod.mk.injEq, true_and] at h
      rw [setKey, if_pos rfl, h.1]
      congr 1
      rw [List.filter_eq_self]
      intro e he
      have := List.filter_eq_nil_iff.1 h.2 e he
      simpa using this
    · have hb : (k' == k) = false := beq_eq_false_iff_ne.2 hk
      have h' : entries rest k = [(k, v)] := by
        simpa only [entries, List.filter_cons, hb, Bool.false_eq_true, if_false] using h
      rw [setKey, if_neg hk, ih h']

theorem getKey_entries (b : Block) (k : Str) :
    getKey b k = match entries b k with | [] => .error .keyError | (_, v) :: _ => .ok v := by
  induction b with
  | nil => rfl
  | cons e rest ih =>
    obtain ⟨k', x⟩ := e
    by_cases hk : k' = k
    · simp [getKey, entries, hk]
    · simp only [getKey, if_neg hk, ih, entries, List.filter_cons, beq_eq_false_iff_ne.2 hk, Bool.false_eq_true, if_false]

theorem hasKey_entries (b : Block) (k : Str) : hasKey b k = !(entries b k).isEmpty := by
  induction b with
  | nil => rfl
  | cons e rest ih =>
    obtain ⟨k', x⟩ := e
    by_cases hk : k' = k
    · simp [hasKey, entries, hk]
    · have : hasKey ((k', x) :: rest) k = hasKey rest k := by simp [hasKey, hk]
      rw [this, ih]
      simp [entries, hk]

theorem getKey_set (b : Block) (k : Str) (v : Pvl.Tree Val) : getKey (setKey b k v) k = .ok v := by
  rw [getKey_entries, entries_set]

theorem getKey_set_other (b : Block) {k k' : Str} (h : k ≠ k') (v : Pvl.Tree Val) : getKey (setKey b k' v) k = getKey b k := by
  rw [getKey_entries, entries_set_other b h, ← getKey_entries]

theorem set_set (b : Block) (k : Str) (v : Pvl.Tree Val) : setKey (setKey b k v) k v = setKey b k v :=
  set_of_entries (entries_set b k v)

theorem valueIs_set_other (b : Block) {k k' : Str} (h : k ≠ k') (v : Pvl.Tree Val) (w : Val) :
    valueIs (setKey b k' v) k w = valueIs b k w := by
  rw [valueIs, valueIs, getKey_set_other b h]

theorem entries_setAll_other (kvs : List (Str × Pvl.Tree Val)) (b : Block) {k : Str} (h : ∀ e ∈ kvs, k ≠ e.1) :
    entries (setAll b kvs) k = entries b k := by
  induction kvs generalizing b with
  | nil => rfl
  | cons e rest ih =>
    change entries (setAll (setKey b e.1 e.2) rest) k = _
    rw [ih _ (fun x hx => h x (List.mem_cons_of_mem _ hx)), entries_set_other b (h e List.mem_cons_self)]

theorem entries_setAll (kvs : List (Str × Pvl.Tree Val)) (b : Block) (h : (kvs.map Prod.fst).Nodup) :
    ∀ e ∈ kvs, entries (setAll b kvs) e.1 = [e] := by
  induction kvs generalizing b with
  | nil => simp
  | cons e rest ih =>
    have hn := List.nodup_cons.1 (List.map_cons ▸ h)
    intro x hx
    change entries (setAll (setKey b e.1 e.2) rest) x.1 = _
    rcases List.mem_cons.1 hx with rfl | hx
    · have hn' : ∀ y ∈ rest, x.1 ≠ y.1 := fun y hy he => hn.1 (by rw [he]; exact List.mem_map_of_mem hy)
      rw [entries_setAll_other rest _ hn', entries_set]
    · exact ih _ hn.2 x hx

theorem setAll_of_entries (kvs : List (Str × Pvl.Tree Val)) {b : Block} (h : ∀ e ∈ kvs, entries b e.1 = [e]) :
    setAll b kvs = b := by
  induction kvs with
  | nil => rfl
  | cons e rest ih =>
    change setAll (setKey b e.1 e.2) rest = b
    rw [set_of_entries (h e List.mem_cons_self)]
    exact ih (fun x hx => h x (List.mem_cons_of_mem _ hx))

theorem setAll_setAll (kvs : List (Str × Pvl.Tree Val)) (h : (kvs.map Prod.fst).Nodup) (b : Block) :
    setAll (setAll b kvs) kvs = setAll b kvs := setAll_of_entries kvs (entries_setAll kvs b h)

/-! ### corrections that may be made again -/

/-- once made, it changes nothing when it is made again -/
def Settled (f : Block → Except PyErr Block) : Prop := ∀ b b', f b = .ok b' → f b' = .ok b'

theorem settled_set (k : Str) (v : Pvl.Tree Val) : Settled (fun b => .ok (setKey b k v)) := by
  rintro b _ ⟨⟩
  exact congrArg Except.ok (set_set b k v)

theorem settled_setAll (kvs : List (Str × Pvl.Tree Val)) (h : (kvs.map Prod.fst).Nodup) :
    Settled (fun b => .ok (setAll b kvs)) := by
  rintro b _ ⟨⟩
  exact congrArg Except.ok (setAll_setAll kvs h b)

theorem settled_del (k : Str) : Settled (fun b => .ok (delKey b k)) := by
  rintro b _ ⟨⟩
  simp [delKey]

theorem settled_ok : Settled (fun b => .ok b) := fun _ _ _ => rfl

theorem inNode_ok {f : Block → Except PyErr Block} {x y : Pvl.Tree Val} (h : inNode f x = .ok y) :
    ∃ b b', x = .node b ∧ y = .node b' ∧ f b = .ok b' := by
  cases x with
  | leaf a => cases h
  | node kids =>
    simp only [inNode] at h
    cases hf : f kids with
    | error e => rw [hf] at h; cases h
    | ok b' => rw [hf] at h; cases h; exact ⟨kids, b', rfl, rfl, hf⟩

theorem inNode_settled {f : Block → Except PyErr Block} (hf : Settled f) {x y : Pvl.Tree Val} (h : inNode f x = .ok y) :
    inNode f y = .ok y := by
  obtain ⟨b, b', rfl, rfl, hb⟩ := inNode_ok h
  rw [inNode, hf b b' hb]
  rfl

theorem map_ok {α β : Type} {x : Except PyErr α} {g : α → β} {y : β} (h : x.map g = .ok y) : ∃ a, x = .ok a ∧ g a = y := by
  cases x with
  | error e => cases h
  | ok a => cases h; exact ⟨a, rfl, rfl⟩

theorem settled_editNth (k : Str) (n : Nat) {f : Block → Except PyErr Block} (hf : Settled f) : Settled (editNth k n f) := by
  intro b
  induction b generalizing n with
  | nil => intro b' h; cases h
  | cons e rest ih =>
    obtain ⟨k', x⟩ := e
    intro b' h
    by_cases hk : k' = k
    · cases n with
      | zero =>
        simp only [editNth, if_pos hk] at h
        obtain ⟨y, hy, rfl⟩ := map_ok h
        simp only [editNth, if_pos hk, inNode_settled hf hy, Except.map]
      | succ m =>
        simp only [editNth, if_pos hk] at h
        obtain ⟨y, hy, rfl⟩ := map_ok h
        simp only [editNth, if_pos hk, ih m y hy, Except.map]
    · simp only [editNth, if_neg hk] at h
      obtain ⟨y, hy, rfl⟩ := map_ok h
      simp only [editNth, if_neg hk, ih n y hy, Except.map]

theorem isColumn_node (k : Str) (b : Block) : isColumn (k, .node b) = (k == c!"COLUMN") := by
  simp [isColumn]

/-- what `onColumns` does to a block's first entry -/
theorem onColumns_cons {f : Block → Except PyErr Block} {k : Str} {x : Pvl.Tree Val} {rest b' : Block}
    (h : onColumns f ((k, x) :: rest) = .ok b') :
    ∃ x' r, b' = (k, x') :: r ∧ onColumns f rest = .ok r ∧
      ((isColumn (k, x) = true ∧ inNode f x = .ok x') ∨ (isColumn (k, x) = false ∧ x' = x)) := by
  cases hc : isColumn (k, x) with
  | true =>
    simp only [onColumns, hc, if_true] at h
    cases hx : inNode f x with
    | error e => rw [hx] at h; cases h
    | ok x' =>
      rw [hx] at h
      obtain ⟨r, hr, rfl⟩ := map_ok h
      exact ⟨x', r, rfl, hr, .inl ⟨rfl, rfl⟩⟩
  | false =>
    simp only [onColumns, hc, Bool.false_eq_true, if_false] at h
    obtain ⟨r, hr, rfl⟩ := map_ok h
    exact ⟨x, r, rfl, hr, .inr ⟨rfl, rfl⟩⟩

theorem onColumns_true {f : Block → Except PyErr Block} {k : Str} {x x' : Pvl.Tree Val} {rest r : Block}
    (hc : isColumn (k, x) = true) (hx : inNode f x = .ok x') (hr : onColumns f rest = .ok r) :
    onColumns f ((k, x) :: rest) = .ok ((k, x') :: r) := by
  simp only [onColumns, hc, if_true, hx, hr, Except.map]

theorem onColumns_false {f : Block → Except PyErr Block} {k : Str} {x : Pvl.Tree Val} {rest r : Block}
    (hc : isColumn (k, x) = false) (hr : onColumns f rest = .ok r) :
    onColumns f ((k, x) :: rest) = .ok ((k, x) :: r) := by
  simp only [onColumns, hc, Bool.false_eq_true, if_false, hr, Except.map]

theorem settled_onColumns {f : Block → Except PyErr Block} (hf : Settled f) : Settled (onColumns f) := by
  intro b
  induction b with
  | nil => rintro b' ⟨⟩; rfl
  | cons e rest ih =>
    obtain ⟨k, x⟩ := e
    intro b' h
    obtain ⟨x', r, rfl, hr, hx⟩ := onColumns_cons h
    rcases hx with ⟨hc, hx⟩ | ⟨hc, rfl⟩
    · refine onColumns_true ?_ (inNode_settled hf hx) (ih r hr)
      obtain ⟨b, b', rfl, rfl, _⟩ := inNode_ok hx
      rw [isColumn_node] at hc ⊢
      exact hc
    · exact onColumns_false hc (ih r hr)

/-- entries that are no mappings stay as they are -/
theorem onColumns_entries {f : Block → Except PyErr Block} {b b' : Block} (h : onColumns f b = .ok b') {k : Str} {v : Val}
    (he : entries b k = [(k, .leaf v)]) : entries b' k = [(k, .leaf v)] := by
  have key : ∀ (b b' : Block), onColumns f b = .ok b' → (∀ e ∈ entries b k, ∃ v, e.2 = .leaf v) → entries b' k = entries b k := by
    intro b
    induction b with
    | nil => rintro b' ⟨⟩ _; rfl
    | cons e rest ih =>
      obtain ⟨j, x⟩ := e
      intro b' h hl
      obtain ⟨x', r, rfl, hr, hx⟩ := onColumns_cons h
      have hl' : ∀ e ∈ entries rest k, ∃ v, e.2 = .leaf v := fun e he => hl e (by
        simp only [entries, List.filter_cons]
        split
        · exact List.mem_cons_of_mem _ he
        · exact he)
      have ih' := ih r hr hl'
      have : j = k → x' = x := by
        intro hj
        rcases hx with ⟨_, hx⟩ | ⟨_, rfl⟩
        · obtain ⟨kids, _, rfl, _, _⟩ := inNode_ok hx
          obtain ⟨v, hv⟩ := hl (j, .node kids) (by simp [entries, hj])
          cases hv
        · rfl
      by_cases hj : j = k
      · rw [this hj]
        simp only [entries, List.filter_cons]
        rw [show List.filter (fun e => e.1 == k) r = List.filter (fun e => e.1 == k) rest from ih']
      · have hb : (j == k) = false := beq_eq_false_iff_ne.2 hj
        simp only [entries, List.filter_cons, hb, Bool.false_eq_true, if_false]
        exact ih'
  rw [key b b' h (fun e he' => by rw [he] at he'; rw [List.mem_singleton.1 he']; exact ⟨v, rfl⟩), he]

theorem onlyIf_ok {c : Except PyErr Bool} {b b' r : Block} (h : onlyIf c b b' = .ok r) :
    (c = .ok true ∧ r = b') ∨ (c = .ok false ∧ r = b) := by
  cases c with
  | error e => cases h
  | ok t => cases t <;> cases h <;> simp

/-- a change of one key when another key has some value -/
theorem settled_when {k k' : Str} (h : k ≠ k') (w : Val) (v : Pvl.Tree Val) :
    Settled (fun b => onlyIf (valueIs b k w) b (setKey b k' v)) := by
  intro b b' hb
  rcases onlyIf_ok hb with ⟨hc, rfl⟩ | ⟨hc, rfl⟩
  · simp only [valueIs_set_other b h, hc, onlyIf, set_set]
  · exact hb

/-- two such changes, of the same key, for two values of the other -/
theorem settled_when_two {k k' : Str} (h : k ≠ k') {w w' : Val} (hw : w ≠ w') (v v' : Pvl.Tree Val) :
    Settled (andNext (fun b => onlyIf (valueIs b k w) b (setKey b k' v)) (fun b => onlyIf (valueIs b k w') b (setKey b k' v'))) := by
  have excl : ∀ b, valueIs b k w = .ok true → valueIs b k w' = .ok false := by
    intro b hb
    unfold valueIs at hb ⊢
    revert hb
    cases getKey b k with
    | error e => intro hb; cases hb
    | ok t => cases t with
      | leaf a =>
        intro hb
        have : a = w := by
          have := (Except.ok.inj hb)
          exact beq_iff_eq.1 this
        subst this
        exact congrArg Except.ok (beq_eq_false_iff_ne.2 hw)
      | node kids => intro hb; simp at hb
  intro b b' hb
  simp only [andNext] at hb
  cases h1 : onlyIf (valueIs b k w) b (setKey b k' v) with
  | error e => rw [h1] at hb; cases hb
  | ok c =>
    rw [h1] at hb
    rcases onlyIf_ok h1 with ⟨hc, rfl⟩ | ⟨hc, rfl⟩
    · have hf : valueIs (setKey b k' v) k w' = .ok false := by rw [valueIs_set_other b h]; exact excl b hc
      simp only [hf, onlyIf] at hb
      cases hb
      simp only [andNext, valueIs_set_other b h, hc, onlyIf, set_set, excl b hc]
    · rcases onlyIf_ok hb with ⟨hc', rfl⟩ | ⟨hc', rfl⟩
      · simp only [andNext, valueIs_set_other _ h, hc, hc', onlyIf, set_set]
      · simp only [andNext, hc, hc', onlyIf]

theorem set_over (b : Block) (k : Str) (v v' : Pvl.Tree Val) : setKey (setKey b k v) k v' = setKey b k v' := by
  induction b with
  | nil => simp [setKey]
  | cons e rest ih =>
    obtain ⟨j, x⟩ := e
    by_cases hj : j = k
    · simp only [setKey, if_pos hj, if_true, List.filter_filter, Bool.and_self]
    · simp only [setKey, if_neg hj, ih]

theorem settled_pws (i : Ids) : Settled (pwsFix i) := by
  rintro b _ ⟨⟩
  simp only [pwsFix]
  cases contains i.product c!"B.TAB" <;> cases contains i.product c!"E.TAB" <;> simp [set_over, set_set]

theorem settled_ssi : Settled ssiColumn := by
  intro c c' h
  have hne : c!"NAME" ≠ c!"DATA_TYPE" := by decide
  cases hv : valueIs c c!"NAME" (.str c!"COMPRESSION_RATIO") with
  | error e => simp only [ssiColumn, hv] at h; cases h
  | ok t => cases t with
    | false => simp only [ssiColumn, hv] at h; cases h; simp only [ssiColumn, hv]
    | true =>
      have h' := h
      simp only [ssiColumn, hv] at h'
      rcases onlyIf_ok h' with ⟨hc, rfl⟩ | ⟨hc, rfl⟩
      · have : valueHas (setKey c c!"DATA_TYPE" (txt c!"CHARACTER")) c!"DATA_TYPE" c!"ASCII" = .ok false := by
          rw [valueHas, getKey_set]; rfl
        simp only [ssiColumn, valueIs_set_other c hne, hv, this, onlyIf]
      · exact h

theorem editNth_entries_other {k j : Str} (hj : j ≠ k) {f : Block → Except PyErr Block} :
    ∀ (b : Block) (n : Nat) (b' : Block), editNth k n f b = .ok b' → entries b' j = entries b j := by
  intro b
  induction b with
  | nil => intro n b' h; cases h
  | cons e rest ih =>
    obtain ⟨k', x⟩ := e
    intro n b' h
    by_cases hk : k' = k
    · have hb : (k' == j) = false := beq_eq_false_iff_ne.2 (hk ▸ hj.symm)
      cases n with
      | zero =>
        simp only [editNth, if_pos hk] at h
        obtain ⟨y, hy, rfl⟩ := map_ok h
        simp only [entries, List.filter_cons, hb, Bool.false_eq_true, if_false]
      | succ m =>
        simp only [editNth, if_pos hk] at h
        obtain ⟨y, hy, rfl⟩ := map_ok h
        simp only [entries, List.filter_cons, hb, Bool.false_eq_true, if_false]
        exact ih m y hy
    · simp only [editNth, if_neg hk] at h
      obtain ⟨y, hy, rfl⟩ := map_ok h
      simp only [entries, List.filter_cons]
      rw [show List.filter (fun e => e.1 == j) y = List.filter (fun e => e.1 == j) rest from ih n y hy]

theorem settled_pstl : Settled pstlFix :=
  settled_editNth _ _ (settled_editNth _ _ (settled_setAll _ (by decide)))

theorem editNth_first_of_second {k : Str} {f g : Block → Except PyErr Block} :
    ∀ (b b' : Block), editNth k 0 f b = .ok b → editNth k 1 g b = .ok b' → editNth k 0 f b' = .ok b' := by
  intro b
  induction b with
  | nil => intro b' h _; cases h
  | cons e rest ih =>
    obtain ⟨k', x⟩ := e
    intro b' h0 h1
    by_cases hk : k' = k
    · simp only [editNth, if_pos hk] at h0 h1
      obtain ⟨y, hy, he⟩ := map_ok h0
      obtain ⟨r, hr, rfl⟩ := map_ok h1
      have : y = x := by simpa using he
      simp only [editNth, if_pos hk, hy, this, Except.map]
    · simp only [editNth, if_neg hk] at h0 h1
      obtain ⟨y, hy, he⟩ := map_ok h0
      obtain ⟨r, hr, rfl⟩ := map_ok h1
      have : y = rest := by simpa using he
      rw [this] at hy
      simp only [editNth, if_neg hk, ih r hy hr, Except.map]

theorem settled_allChan : Settled allChanFix := by
  have hf := settled_editNth c!"CONTAINER" 0 (settled_editNth c!"COLUMN" 0 (settled_set c!"START_BYTE" (num 1)))
  have hg : Settled (fun c => editNth c!"COLUMN" 0 (fun d => .ok (setKey d c!"START_BYTE" (num 1))) (setKey c c!"START_BYTE" (num 1))) := by
    intro c c' h
    have he := editNth_entries_other (j := c!"START_BYTE") (by decide) _ _ _ h
    rw [entries_set] at he
    beta_reduce
    rw [set_of_entries he]
    exact settled_editNth c!"COLUMN" 0 (settled_set c!"START_BYTE" (num 1)) _ _ h
  have hg' := settled_editNth c!"CONTAINER" 1 (settled_editNth c!"CONTAINER" 0 hg)
  intro b b' h
  simp only [allChanFix, andNext] at h
  revert h
  cases h1 : editNth c!"CONTAINER" 0 (editNth c!"COLUMN" 0 (fun c => .ok (setKey c c!"START_BYTE" (num 1)))) b with
  | error e => intro h; cases h
  | ok b1 =>
    intro h
    have h2 := editNth_first_of_second _ _ (hf _ _ h1) h
    simp only [allChanFix, andNext, h2]
    exact hg' _ _ h

theorem settled_ulysses (i : Ids) : Settled (ulyssesFix i) := by
  intro b b' h
  unfold ulyssesFix at h ⊢
  split at h
  · rename_i hc; rw [if_pos hc]; exact settled_pstl _ _ h
  · rename_i hc
    rw [if_neg hc]
    split at h
    · rename_i hc; rw [if_pos hc]; exact settled_allChan _ _ h
    · rename_i hc; rw [if_neg hc]

theorem settled_jupiter : Settled jupiterColumn := by
  have := settled_when_two (k := c!"NAME") (k' := c!"START_BYTE") (by decide) (w := .str c!"STATUS_WORD")
    (w' := .str c!"DATA_CHANNELS") (by decide) (num 1) (num 5)
  exact this

theorem settled_pra (i : Ids) (h : praOuter.contains i.dataSet = false) : Settled (praFix i) := by
  intro b b' hb
  unfold praFix at hb ⊢
  rw [h] at hb ⊢
  simp only [Bool.false_eq_true, if_false] at hb ⊢
  split at hb
  · rename_i hc; rw [if_pos hc]; exact settled_editNth _ _ (settled_onColumns settled_jupiter) _ _ hb
  · rename_i hc; rw [if_neg hc]

theorem getKey_add_other (b : Block) {k k' : Str} (h : k ≠ k') (v : Pvl.Tree Val) : getKey (addKey b k' v) k = getKey b k := by
  have : entries (addKey b k' v) k = entries b k := by
    simp [entries, addKey, h.symm]
  rw [getKey_entries, this, ← getKey_entries]

theorem hasKey_add (b : Block) (k : Str) (v : Pvl.Tree Val) : hasKey (addKey b k v) k = true := by
  simp [hasKey, addKey]

theorem settled_radar : Settled radarColumn := by
  intro c c' h
  have hne : c!"START_BYTE" ≠ c!"NAME" := by decide
  have hv : ∀ (c : Block) (v : Pvl.Tree Val) (w : Val), valueIs (addKey c c!"NAME" v) c!"START_BYTE" w = valueIs c c!"START_BYTE" w := by
    intro c v w
    rw [valueIs, valueIs, getKey_add_other c hne]
  simp only [radarColumn, andNext] at h ⊢
  cases h1 : valueIs c c!"START_BYTE" (.int 17) with
  | error e => rw [h1] at h; cases h
  | ok t =>
    cases h2 : valueIs c c!"START_BYTE" (.int 21) with
    | error e =>
      rw [h1] at h
      cases hk : hasKey c c!"NAME" <;> cases t <;> simp [hk, hv, h2] at h
    | ok u =>
      rw [h1] at h
      simp only at h
      cases hk : hasKey c c!"NAME" <;> cases t <;> cases u <;>
        simp [hk, hv, h1, h2, hasKey_add] at h <;> subst h <;> simp [hk, hv, h1, h2, hasKey_add]

theorem settled_pfsColumn : Settled pfsColumn := by
  have := settled_when_two (k := c!"NAME") (k' := c!"DATA_TYPE") (by decide) (w := .str c!"OBT OBSERVATION TIME")
    (w' := .str c!"SCET OBSERVATION TIME") (by decide) (txt c!"PC_REAL") (txt c!"PC_UNSIGNED_INTEGER")
  exact this

theorem settled_pfs (i : Ids) (a : Around) : Settled (pfsFix i a) := by
  intro b b' h
  unfold pfsFix at h ⊢
  revert h
  cases pfsEarly a.orbit with
  | error e => intro h; cases h
  | ok t => cases t with
    | false => intro _; rfl
    | true =>
      intro h
      have he := onColumns_entries h (entries_set b c!"ROWS" _)
      simp only
      rw [set_of_entries he]
      exact settled_onColumns settled_pfsColumn _ _ h

theorem splitOn_parts (sep : Char) (s : Str) : ∀ p ∈ splitOn sep s, sep ∉ p := by
  induction s with
  | nil => simp [splitOn]
  | cons c cs ih =>
    have hn := splitOn_ne_nil sep cs
    simp only [splitOn]
    by_cases hc : c = sep
    · rw [if_pos hc]
      intro p hp
      rcases List.mem_cons.1 hp with rfl | hp
      · simp
      · exact ih p hp
    · rw [if_neg hc]
      cases hs : splitOn sep cs with
      | nil => exact absurd hs hn
      | cons x xs =>
        rw [hs] at ih
        intro p hp
        rcases List.mem_cons.1 hp with rfl | hp
        · intro hm
          rcases List.mem_cons.1 hm with rfl | hm
          · exact hc rfl
          · exact ih x List.mem_cons_self hm
        · exact ih p (List.mem_cons_of_mem _ hp)

theorem lastPart_plain (s : Str) : contains (lastPart s) c!"/" = false := by
  have h : '/' ∉ lastPart s := by
    unfold lastPart
    cases hl : (splitOn '/' s).getLast? with
    | none => simp
    | some p => exact splitOn_parts '/' s p (List.mem_of_getLast? hl)
  rw [Bool.eq_false_iff]
  intro hc
  obtain ⟨x, y, hxy⟩ := (Datatypes.contains_iff _ _).1 hc
  exact h (by rw [← hxy]; simp)

theorem settled_basename (k : Str) : Settled (basename k) := by
  intro b b' h
  unfold basename at h ⊢
  cases hg : getKey b k with
  | error e => rw [hg] at h; cases h
  | ok t => cases t with
    | node kids =>
      simp only [hg] at h
      split at h
      · cases h
      · cases h
        simp only [hg]
        rw [if_neg (by assumption)]
    | leaf v => cases v with
      | none => simp only [hg] at h; cases h
      | int n => simp only [hg] at h; cases h
      | str s =>
        simp only [hg] at h
        cases h
        by_cases hc : contains s c!"/" = true
        · simp only [hc, if_true, getKey_set, txt, lastPart_plain, Bool.false_eq_true, if_false]
        · simp only [hc, Bool.false_eq_true, if_false, hg]

/-! ### MOLA -/

theorem mola_arith {S r rb : Int} (hS : 0 ≤ S) (hrb : rb ≠ 0) :
    (S - max 0 (S - ((S - max 0 (S - r * rb)).tdiv rb) * rb)).tdiv rb = (S - max 0 (S - r * rb)).tdiv rb := by
  by_cases h : r * rb ≤ S
  · have e1 : S - max 0 (S - r * rb) = r * rb := by omega
    rw [e1, Int.mul_tdiv_cancel r hrb, e1, Int.mul_tdiv_cancel r hrb]
  · have e1 : S - max 0 (S - r * rb) = S := by omega
    rw [e1]
    have hm : S.tdiv rb * rb ≤ S := by
      have := Int.tmod_nonneg rb hS
      have h2 := Int.mul_tdiv_add_tmod S rb
      rw [Int.mul_comm] at h2
      omega
    have e2 : S - max 0 (S - S.tdiv rb * rb) = S.tdiv rb * rb := by omega
    rw [e2, Int.mul_tdiv_cancel _ hrb]

theorem blkOf_set_rows (b : Block) (m : Int) : blkOf (setKey b c!"ROWS" (num m)) = { blkOf b with rows := some (.int m) } := by
  simp only [blkOf, getKey_set]
  rw [getKey_set_other b (k := c!"RECORD_BYTES") (by decide), getKey_set_other b (k := c!"BYTES") (by decide),
    getKey_set_other b (k := c!"RECORDS") (by decide), getKey_set_other b (k := c!"ROW_BYTES") (by decide),
    getKey_set_other b (k := c!"ROW_SUFFIX_BYTES") (by decide)]
  rfl

/-- where a table starts when the number of its rows has been corrected -/
theorem start_rows {identRb : Val} {B : Blk} {t : Target} {S : Nat} {start rb : Int} (hrb : B.rowBytes = some (.int rb))
    (h0 : rb ≠ 0) (h : dataStartByte identRb (some B) t S = .ok start) :
    ∃ start', dataStartByte identRb (some { B with rows := some (.int (((S : Int) - start).tdiv rb)) }) t S = .ok start' ∧
      ((S : Int) - start').tdiv rb = ((S : Int) - start).tdiv rb := by
  have hitem : ∃ it : Item, ∀ B' : Blk, dataStartByte identRb (some B') t S = dataStartByte identRb (some B') (.item it) S := by
    cases t with
    | item it => exact ⟨it, fun _ => rfl⟩
    | seq xs => cases hl : xs.getLast? with
      | none => simp [dataStartByte, hl] at h
      | some it => exact ⟨it, fun _ => by simp [dataStartByte, hl]⟩
  obtain ⟨it, hit⟩ := hitem
  rw [hit] at h
  simp only [hit]
  clear hit
  · unfold dataStartByte at h ⊢
    simp only at h ⊢
    have hrs : ∀ r, recordSize identRb (some { B with rows := r }) = recordSize identRb (some B) := fun _ => rfl
    rw [hrs]
    by_cases hdep : ∃ n, it = .val (.int n) ∧ n ≠ 1 ∧ ¬ (recordSize identRb (some B) ≠ .none ∧ recordSize identRb (some B) ≠ .str [])
    · obtain ⟨n, rfl, hn, hrec⟩ := hdep
      simp only [itemStart, if_neg hn, if_neg hrec, hrb] at h ⊢
      cases hr : B.rows with
      | none => rw [hr] at h; simp at h
      | some r =>
        rw [hr] at h
        cases r with
        | none => simp [bottomStart, mulV] at h
        | str s => simp [bottomStart, mulV] at h
        | int r =>
          simp only [bottomStart, mulV] at h ⊢
          have hp : ∀ x : Int, ¬ max 0 x < 0 := fun x => by omega
          rw [if_neg (hp _)] at h
          have hs : start = max 0 ((S : Int) - r * rb) := (Except.ok.inj h).symm
          subst hs
          refine ⟨_, if_neg (hp _), ?_⟩
          exact mola_arith (Int.natCast_nonneg S) h0
    · refine ⟨start, ?_, rfl⟩
      have hsame : itemStart (recordSize identRb (some B)) (some { B with rows := some (.int (((S : Int) - start).tdiv rb)) }) S it =
          itemStart (recordSize identRb (some B)) (some B) S it := by
        cases it with
        | quantity v u => rfl
        | val v => cases v with
          | none => rfl
          | str s => rfl
          | int n =>
            by_cases hn : n = 1
            · simp only [itemStart, if_pos hn]
            · have hrec : recordSize identRb (some B) ≠ .none ∧ recordSize identRb (some B) ≠ .str [] := by
                by_contra hc
                exact hdep ⟨n, rfl, hn, hc⟩
              simp only [itemStart, if_neg hn, if_pos hrec]
      rw [hsame]
      exact h

theorem settled_mola (i : Ids) (a : Around) : Settled (molaFix i a) := by
  intro b b' h
  unfold molaFix at h
  cases hs : dataStartByte i.recordBytes (some (blkOf b)) a.pointer a.fileSize with
  | error e => rw [hs] at h; cases h
  | ok start =>
    rw [hs] at h
    cases hg : getKey b c!"ROW_BYTES" with
    | error e => rw [hg] at h; cases h
    | ok t => cases t with
      | node kids => rw [hg] at h; cases h
      | leaf v => cases v with
        | none => rw [hg] at h; cases h
        | str s => rw [hg] at h; cases h
        | int rb =>
          rw [hg] at h
          simp only at h
          split at h
          · cases h
          · rename_i h0
            cases h
            have hrb : (blkOf b).rowBytes = some (.int rb) := by simp only [blkOf, hg]
            obtain ⟨start', h1, h2⟩ := start_rows hrb h0 hs
            unfold molaFix
            rw [blkOf_set_rows, h1]
            simp only [getKey_set_other b (k := c!"ROW_BYTES") (k' := c!"ROWS") (by decide), hg, if_neg h0, h2, set_set]

/-! ### all corrections -/

theorem firstFix_all {P : Fix → Prop} (hg : P .general) : ∀ (rules : List (Except PyErr Bool × Fix)),
    (∀ r ∈ rules, r.1 = .ok true → P r.2) → ∀ f, firstFix rules = .ok f → P f := by
  intro rules
  induction rules with
  | nil => rintro _ f ⟨⟩; exact hg
  | cons r rest ih =>
    obtain ⟨c, g⟩ := r
    intro h f hf
    cases c with
    | error e => cases hf
    | ok t => cases t with
      | true => cases hf; exact h _ List.mem_cons_self rfl
      | false => exact ih (fun r hr => h r (List.mem_cons_of_mem _ hr)) f hf

theorem startsWith_prefix {s p : Str} (h : startsWith s p = true) : p <+: s := by
  obtain ⟨r, rfl⟩ := (startsWith_iff s p).1 h
  exact ⟨r, rfl⟩

/-- may be made again -/
def Fix.Settled : Fix → Prop
  | .edit f => Special.Settled f
  | _ => True

theorem fix_settled {i : Ids} {name : Str} (h : ¬ Moving i name) (a : Around) (named : Bool) :
    ∀ f, fixOf i name a named = .ok f → f.Settled := by
  refine firstFix_all (P := Fix.Settled) trivial _ ?_
  simp only [List.forall_mem_cons, List.not_mem_nil, false_imp_iff, implies_true, and_true]
  refine ⟨fun _ => trivial, fun _ => trivial, fun _ => trivial, fun _ => trivial, fun _ => settled_setAll _ (by decide),
    fun _ => settled_set _ _, fun _ => settled_set _ _, fun _ => settled_set _ _, fun _ => settled_pws i,
    fun _ => settled_ulysses i, fun _ => settled_set _ _, fun _ => settled_when (by decide) _ _, fun _ => ?_,
    fun _ => settled_set _ _, fun _ => settled_editNth _ _ (settled_set _ _), fun _ => settled_onColumns settled_radar,
    fun hc => ?_, fun hc => ?_, fun _ => settled_pfs i a, fun _ => trivial, fun hc => ?_, fun _ => settled_del _,
    fun _ => settled_basename _, fun _ => settled_mola i a, fun _ => ?_, fun _ => settled_onColumns settled_ssi,
    fun _ => settled_setAll _ (by decide), fun _ => ?_, fun _ => trivial, fun _ => trivial, fun _ => trivial,
    fun _ => trivial, fun _ => trivial, fun _ => trivial⟩
  · intro b b' hb
    rcases onlyIf_ok hb with ⟨hc, rfl⟩ | ⟨hc, rfl⟩
    · have : valueIs (setKey b c!"ROW_BYTES" (num 64)) c!"ROW_BYTES" (.int 57) = .ok false := by
        rw [valueIs, getKey_set]; rfl
      simp only [this, onlyIf]
    · exact hb
  · refine settled_pra i (Bool.eq_false_iff.2 (fun hp => h (.inr (.inr ⟨by simpa [praOuter, Spec.sweeps] using hp, ?_⟩))))
    have := Except.ok.inj hc
    simp only [Bool.and_eq_true, beq_iff_eq] at this
    exact this.2
  · exfalso
    have := Except.ok.inj hc
    simp only [Bool.and_eq_true, beq_iff_eq] at this
    exact h (.inr (.inl ⟨this.1.1, (startsWith_prefix (matches_lit this.1.2)), this.2⟩))
  · have := Except.ok.inj hc
    simp only [Bool.and_eq_true, beq_iff_eq] at this
    intro b b' hb
    unfold wffFix at hb ⊢
    have hs : startsWith i.product c!"S" = false :=
      Bool.eq_false_iff.2 (fun hp => h (.inl ⟨this.1, startsWith_prefix hp, this.2⟩))
    rw [hs] at hb ⊢
    simp only [Bool.false_eq_true, if_false]
  · cases named <;> trivial
  · by_cases hn : name = c!"DOPPLER_SBAND_TABLE" <;> simp only [hn, if_true, if_false] <;> trivial

/-- C102: when an object's definition is corrected, it is corrected once: each time it is used it is the same. -/
theorem C102_reading_again {i : Ids} {name : Str} (h : ¬ Moving i name) {a : Around} {d d' : Defs} {b : Option Block}
    (hr : readBlock i name a d = .ok (b, d')) : ∀ n, readTimes i name a n d = .ok (b, d') := by
  have again : readBlock i name a d' = .ok (b, d') := by
    have hf := fix_settled h a
    cases hx : fixOf i name a (d name).isSome with
    | error e => simp only [readBlock, hx] at hr; cases hr
    | ok f =>
      have hs := hf _ f hx
      cases f with
      | general => simp only [readBlock, hx] at hr; cases hr; simp only [readBlock, hx]
      | other n => simp only [readBlock, hx] at hr; cases hr; simp only [readBlock, hx]
      | made n => simp only [readBlock, hx] at hr; cases hr; simp only [readBlock, hx]
      | copy n g =>
        have hr' := hr
        simp only [readBlock, hx] at hr
        cases hn : d n with
        | none => rw [hn] at hr; cases hr
        | some x =>
          rw [hn] at hr
          simp only at hr
          cases hg : g x with
          | error e => rw [hg] at hr; cases hr
          | ok y => rw [hg] at hr; cases hr; exact hr'
      | edit g =>
        simp only [readBlock, hx] at hr
        cases hn : d name with
        | none => rw [hn] at hr; cases hr
        | some x =>
          rw [hn] at hr
          simp only at hr
          cases hg : g x with
          | error e => rw [hg] at hr; cases hr
          | ok y =>
            rw [hg] at hr
            cases hr
            have hn' : d.set name y name = some y := if_pos rfl
            have hx' : fixOf i name a (some y).isSome = .ok (.edit g) := by
              rw [← hx, hn]; rfl
            have hset : (d.set name y).set name y = d.set name y := by
              funext n
              simp only [Defs.set]
              split <;> rfl
            have hy : g y = .ok y := hs x y hg
            simp only [readBlock, hn', hx', hy, hset]
  intro n
  cases n with
  | zero => exact hr
  | succ n =>
    have : ∀ n, readTimes i name a n d' = .ok (b, d') := by
      intro n
      induction n with
      | zero => exact again
      | succ n ih => simp only [readTimes, again, ih]
    simp only [readTimes, hr, this]

/-- C102: no other object's definition changes -/
theorem C102_other_definitions {i : Ids} {name : Str} {a : Around} {d d' : Defs} {b : Option Block}
    (hr : readBlock i name a d = .ok (b, d')) (n : Str) (hn : n ≠ name) : d' n = d n := by
  unfold readBlock at hr
  cases hx : fixOf i name a (d name).isSome with
  | error e => rw [hx] at hr; cases hr
  | ok f =>
    rw [hx] at hr
    cases f with
    | general => cases hr; rfl
    | other m => cases hr; rfl
    | made m => cases hr; rfl
    | copy m g =>
      simp only at hr
      cases hm : d m with
      | none => rw [hm] at hr; cases hr
      | some x =>
        rw [hm] at hr
        simp only at hr
        cases hg : g x with
        | error e => rw [hg] at hr; cases hr
        | ok y => rw [hg] at hr; cases hr; rfl
    | edit g =>
      simp only at hr
      cases hm : d name with
      | none => rw [hm] at hr; cases hr
      | some x =>
        rw [hm] at hr
        simp only at hr
        cases hg : g x with
        | error e => rw [hg] at hr; cases hr
        | ok y => rw [hg] at hr; cases hr; exact if_neg hn

theorem fix_skip {c : Bool} {f : Fix} {rest : List (Except PyErr Bool × Fix)} (h : c = false) :
    firstFix ((.ok c, f) :: rest) = firstFix rest := by rw [h]; rfl

theorem fix_take {c : Bool} {f : Fix} {rest : List (Except PyErr Bool × Fix)} (h : c = true) :
    firstFix ((.ok c, f) :: rest) = .ok f := by rw [h]; rfl

theorem and_left {a b : Bool} (h : a = false) : (a && b) = false := by rw [h]; rfl

theorem and_right {a b : Bool} (h : b = false) : (a && b) = false := by rw [h, Bool.and_false]

/-- a condition that does not hold -/
syntax "no" : tactic
macro_rules
  | `(tactic| no) => `(tactic| first | decide | (refine and_right ?_; no) | (refine and_left ?_; no))

theorem readBlock_edit {i : Ids} {name : Str} {a : Around} {f : Block → Except PyErr Block}
    (hx : ∀ named, fixOf i name a named = .ok (.edit f)) {d : Defs} {b b' : Block} (hd : d name = some b) (hf : f b = .ok b') :
    readBlock i name a d = .ok (some b', d.set name b') := by
  simp only [readBlock, hx, hd, hf]

theorem getKey_setAll_other (kvs : List (Str × Pvl.Tree Val)) (b : Block) {k : Str} (h : ∀ e ∈ kvs, k ≠ e.1) :
    getKey (setAll b kvs) k = getKey b k := by
  rw [getKey_entries, entries_setAll_other kvs b h, ← getKey_entries]

theorem getKey_setAll (kvs : List (Str × Pvl.Tree Val)) (b : Block) (h : (kvs.map Prod.fst).Nodup) {k : Str} {v : Pvl.Tree Val}
    (hk : (k, v) ∈ kvs) : getKey (setAll b kvs) k = .ok v := by
  rw [getKey_entries, entries_setAll kvs b h (k, v) hk]

/-- a definition with these values, and everything else as it was -/
def Corrected (b b' : Block) (kvs : List (Str × Val)) : Prop :=
  (∀ e ∈ kvs, getKey b' e.1 = .ok (.leaf e.2)) ∧ ∀ k, (∀ e ∈ kvs, k ≠ e.1) → getKey b' k = getKey b k

theorem corrected_set (b : Block) (k : Str) (v : Val) : Corrected b (setKey b k (.leaf v)) [(k, v)] := by
  refine ⟨fun e he => ?_, fun k' hk => getKey_set_other b (hk _ List.mem_cons_self) _⟩
  rw [List.mem_singleton.1 he]
  exact getKey_set b k _

theorem corrected_setAll (b : Block) (kvs : List (Str × Val)) (h : (kvs.map Prod.fst).Nodup) :
    Corrected b (setAll b (kvs.map (fun e => (e.1, .leaf e.2)))) kvs := by
  have h' : ((kvs.map (fun e => (e.1, Pvl.Tree.leaf e.2))).map Prod.fst).Nodup := by
    rw [List.map_map]; exact h
  refine ⟨fun e he => getKey_setAll _ b h' (List.mem_map.2 ⟨e, he, rfl⟩), fun k hk => getKey_setAll_other _ b ?_⟩
  intro e he
  obtain ⟨x, hx, rfl⟩ := List.mem_map.1 he
  exact hk x hx

/-- C102: the corrections of single values: the values used are these, and everything else is as in the label -/
theorem C102_corrected_values (i : Ids) (name : Str) (a : Around) (d : Defs) (b : Block) (hd : d name = some b) :
    ∀ kvs, Replaces i name kvs → ∃ b' d', readBlock i name a d = .ok (some b', d') ∧ Corrected b b' kvs := by
  have hc : ∀ {s u : Str}, u <:+: s → contains s u = true := fun h => (Datatypes.contains_iff _ _).2 h
  intro kvs h
  cases h with
  | miniRf h1 h2 =>
    have hx : ∀ named, fixOf i c!"IMAGE" a named =
        .ok (.edit (fun b => .ok (setAll b [(c!"LINES", num 5760), (c!"LINE_SAMPLES", num 11520)]))) := by
      intro named
      dsimp only [fixOf]
      rw [h1, hc h2]
      iterate 4 rw [fix_skip (by no)]
      exact fix_take (by rfl)
    exact ⟨_, _, readBlock_edit hx hd rfl,
      corrected_setAll b [(c!"LINES", .int 5760), (c!"LINE_SAMPLES", .int 11520)] (by decide)⟩
  | orpa h1 h2 =>
    have hx : ∀ named, fixOf i c!"TABLE" a named = .ok (.edit (fun b => .ok (setKey b c!"ROW_BYTES" (num 243)))) := by
      intro named
      dsimp only [fixOf]
      rw [h1, hc h2]
      iterate 5 rw [fix_skip (by no)]
      exact fix_take (by rfl)
    exact ⟨_, _, readBlock_edit hx hd rfl, corrected_set b _ _⟩
  | @oims n h1 h2 =>
    have hx : ∀ named, fixOf i c!"TABLE" a named = .ok (.edit (fun b => .ok (setKey b c!"ROWS" (num n)))) := by
      intro named
      dsimp only [fixOf]
      rw [h1, h2]
      iterate 6 rw [fix_skip (by no)]
      exact fix_take (by rfl)
    exact ⟨_, _, readBlock_edit hx hd rfl, corrected_set b _ _⟩
  | mag h1 h2 h3 =>
    have hx : ∀ named, fixOf i c!"TABLE" a named = .ok (.edit (fun b => .ok (setKey b c!"ROW_BYTES" (num 145)))) := by
      intro named
      have e3 : (i.instrumentName == c!"PLASMA WAVE RECEIVER") = false := beq_eq_false_iff_ne.2 h3
      dsimp only [fixOf]
      rw [h1, h2, e3]
      iterate 10 rw [fix_skip (by no)]
      exact fix_take (by rfl)
    exact ⟨_, _, readBlock_edit hx hd rfl, corrected_set b _ _⟩
  | ionbr h1 h2 h3 =>
    have hx : ∀ named, fixOf i c!"TIME_SERIES" a named =
        .ok (.edit (fun b => .ok (setKey b c!"^STRUCTURE" (txt c!"SUMRY.FMT")))) := by
      intro named
      have e3 : (i.instrumentName == c!"PLASMA WAVE RECEIVER") = false := beq_eq_false_iff_ne.2 h3
      dsimp only [fixOf]
      rw [h1, h2, e3]
      iterate 13 rw [fix_skip (by no)]
      exact fix_take (by rfl)
    exact ⟨_, _, readBlock_edit hx hd rfl, corrected_set b _ _⟩
  | @epd n h1 h2 h3 =>
    have hx : ∀ named, fixOf i c!"TIME_SERIES" a named = .ok (.edit (fun b => .ok (setKey b c!"ROW_BYTES" (num n)))) := by
      intro named
      dsimp only [fixOf]
      rw [h1, hc h2, h3]
      iterate 7 rw [fix_skip (by no)]
      exact fix_take (by rfl)
    exact ⟨_, _, readBlock_edit hx hd rfl, corrected_set b _ _⟩
  | pwsB h1 h2 h3 h4 =>
    have hx : ∀ named, fixOf i c!"TABLE" a named = .ok (.edit (pwsFix i)) := by
      intro named
      dsimp only [fixOf]
      rw [h1, h2]
      iterate 8 rw [fix_skip (by no)]
      exact fix_take (by rfl)
    have hp : pwsFix i b = .ok (setKey b c!"ROW_BYTES" (num 366)) := by
      have e4 : contains i.product c!"E.TAB" = false := Bool.eq_false_iff.2 (fun e => h4 ((Datatypes.contains_iff _ _).1 e))
      simp only [pwsFix, hc h3, e4, if_true, Bool.false_eq_true, if_false]
    exact ⟨_, _, readBlock_edit hx hd hp, corrected_set b _ _⟩
  | pwsE h1 h2 h3 h4 =>
    have hx : ∀ named, fixOf i c!"TABLE" a named = .ok (.edit (pwsFix i)) := by
      intro named
      dsimp only [fixOf]
      rw [h1, h2]
      iterate 8 rw [fix_skip (by no)]
      exact fix_take (by rfl)
    have hp : pwsFix i b = .ok (setKey b c!"ROW_BYTES" (num 516)) := by
      have e4 : contains i.product c!"B.TAB" = false := Bool.eq_false_iff.2 (fun e => h4 ((Datatypes.contains_iff _ _).1 e))
      simp only [pwsFix, hc h3, e4, if_true, Bool.false_eq_true, if_false]
    exact ⟨_, _, readBlock_edit hx hd hp, corrected_set b _ _⟩

/-- C102: the supplement table of the Kaguya SP: a definition without the last four entries, and with four columns fewer; the
one in the metadata stays as it is -/
theorem C102_supplement (i : Ids) (hi : i.dataSet = c!"SLN-L-SP-3-LEVEL2B-V2.0") (h1 : i.instrumentName ≠ c!"PLASMA WAVE RECEIVER")
    (h2 : i.host ≠ c!"MARS EXPRESS") (h3 : i.instrument ≠ c!"VRA") (a : Around) (d : Defs) (kept : Block)
    (last : List (Str × Pvl.Tree Val)) (hl : last.length = 4) (hd : d c!"ANCILLARY_AND_SUPPLEMENT_DATA" = some (kept ++ last)) (n : Int)
    (hn : getKey kept c!"COLUMNS" = .ok (num n)) :
    ∃ b', readBlock i c!"ANCILLARY_AND_SUPPLEMENT_DATA" a d = .ok (some b', d) ∧ Corrected kept b' [(c!"COLUMNS", .int (n - 4))] := by
  have e1 : (i.instrumentName == c!"PLASMA WAVE RECEIVER") = false := beq_eq_false_iff_ne.2 h1
  have e2 : (i.host == c!"MARS EXPRESS") = false := beq_eq_false_iff_ne.2 h2
  have e3 : (i.instrument == c!"VRA") = false := beq_eq_false_iff_ne.2 h3
  have hx : ∀ named, fixOf i c!"ANCILLARY_AND_SUPPLEMENT_DATA" a named = .ok (.copy c!"ANCILLARY_AND_SUPPLEMENT_DATA" suppFix) := by
    intro named
    dsimp only [fixOf, vera]
    rw [hi, e1, e2, e3]
    iterate 21 rw [fix_skip (by no)]
    rw [show andThen (c!"SLN-L-SP-3-LEVEL2B-V2.0" == c!"CO-CAL-ISS-2-V1.0" &&
      c!"ANCILLARY_AND_SUPPLEMENT_DATA" == c!"IMAGE") (issImage i a) = .ok false from rfl]
    iterate 8 rw [fix_skip (by no)]
    exact fix_take (by rfl)
  have hs : suppFix (kept ++ last) = .ok (setKey kept c!"COLUMNS" (num (n - 4))) := by
    have : (kept ++ last).take ((kept ++ last).length - 4) = kept := by
      rw [List.length_append, hl, Nat.add_sub_cancel, List.take_left']
      rfl
    simp only [suppFix, this, hn, num]
  refine ⟨_, ?_, corrected_set kept _ _⟩
  unfold readBlock
  rw [hx]
  simp only [hd, hs]
  rfl

/-- a product of the Kaguya SP -/
def spectra : Ids where
  dataSet := c!"SLN-L-SP-3-LEVEL2B-V2.0"

example (col : Pvl.Tree Val) (d : Defs) (hd : d c!"ANCILLARY_AND_SUPPLEMENT_DATA" = some ([(c!"COLUMNS", num 6), (c!"COLUMN", col),
      (c!"COLUMN", col)] ++ [(c!"COLUMN", col), (c!"COLUMN", col), (c!"COLUMN", col), (c!"COLUMN", col)])) :
    ∃ b', readBlock spectra c!"ANCILLARY_AND_SUPPLEMENT_DATA" {} d = .ok (some b', d) ∧
      Corrected [(c!"COLUMNS", num 6), (c!"COLUMN", col), (c!"COLUMN", col)] b' [(c!"COLUMNS", .int 2)] :=
  C102_supplement spectra rfl (by decide) (by decide) (by decide) {} d _ _ rfl hd 6 rfl

/-! ### corrections that are made each time -/

/-- the definition after a correction -/
def next (f : Block → Except PyErr Block) (b : Block) : Block :=
  match f b with
  | .ok b' => b'
  | .error _ => b

theorem readTimes_edit {i : Ids} {name : Str} {a : Around} {f : Block → Except PyErr Block} {Inv : Block → Prop}
    (hx : ∀ named, fixOf i name a named = .ok (.edit f)) (hf : ∀ b, Inv b → ∃ b', f b = .ok b' ∧ Inv b') :
    ∀ (n : Nat) (d : Defs) (b : Block), d name = some b → Inv b →
      ∃ d', readTimes i name a n d = .ok (some ((next f)^[n + 1] b), d') ∧ Inv ((next f)^[n + 1] b) := by
  intro n
  induction n with
  | zero =>
    intro d b hd hb
    obtain ⟨b', h, hi⟩ := hf b hb
    have hn : next f b = b' := by rw [next, h]
    exact ⟨_, (readBlock_edit hx hd h).trans (by rw [← hn]; rfl), by rw [← hn] at hi; exact hi⟩
  | succ n ih =>
    intro d b hd hb
    obtain ⟨b', h, hi⟩ := hf b hb
    have hn : next f b = b' := by rw [next, h]
    obtain ⟨d', h1, h2⟩ := ih (d.set name b') b' (if_pos rfl) hi
    refine ⟨d', ?_, ?_⟩
    · rw [readTimes, readBlock_edit hx hd h, Function.iterate_succ_apply, hn]
      exact h1
    · rw [Function.iterate_succ_apply, hn]
      exact h2

/-- C103: LINES and LINE_SAMPLES of these images are exchanged each time the definition is used: right the first time, as
in the label the second time, and so on -/
theorem C103_lines_and_samples {i : Ids} (hd : i.dataSet = c!"WFF-E-ATM-1/5-V1.0") (hp : c!"S" <+: i.product) (a : Around)
    (d : Defs) (b : Block) (hb : d c!"IMAGE" = some b) (lines samples : Pvl.Tree Val)
    (hl : getKey b c!"LINES" = .ok lines) (hs : getKey b c!"LINE_SAMPLES" = .ok samples) (n : Nat) :
    ∃ b' d', readTimes i c!"IMAGE" a n d = .ok (some b', d') ∧
      getKey b' c!"LINES" = .ok (if n % 2 = 0 then samples else lines) ∧
      getKey b' c!"LINE_SAMPLES" = .ok (if n % 2 = 0 then lines else samples) := by
  have hx : ∀ named, fixOf i c!"IMAGE" a named = .ok (.edit (wffFix i)) := by
    intro named
    dsimp only [fixOf]
    rw [hd]
    iterate 20 rw [fix_skip (by no)]
    exact fix_take (by rfl)
  have hsw : startsWith i.product c!"S" = true := by
    obtain ⟨r, hr⟩ := hp
    exact (startsWith_iff _ _).2 ⟨r, hr.symm⟩
  have step : ∀ (c : Block) (l s : Pvl.Tree Val), getKey c c!"LINES" = .ok l → getKey c c!"LINE_SAMPLES" = .ok s →
      wffFix i c = .ok (next (wffFix i) c) ∧ getKey (next (wffFix i) c) c!"LINES" = .ok s ∧
        getKey (next (wffFix i) c) c!"LINE_SAMPLES" = .ok l := by
    intro c l s h1 h2
    have e : wffFix i c = .ok (setKey (setKey c c!"LINES" s) c!"LINE_SAMPLES" l) := by
      simp only [wffFix, hsw, if_true, h1, h2]
    have en : next (wffFix i) c = setKey (setKey c c!"LINES" s) c!"LINE_SAMPLES" l := by rw [next, e]
    rw [en]
    refine ⟨e, ?_, getKey_set _ _ _⟩
    rw [getKey_set_other _ (by decide), getKey_set]
  have hinv : ∀ c, (∃ l s, getKey c c!"LINES" = .ok l ∧ getKey c c!"LINE_SAMPLES" = .ok s) →
      ∃ c', wffFix i c = .ok c' ∧ ∃ l s, getKey c' c!"LINES" = .ok l ∧ getKey c' c!"LINE_SAMPLES" = .ok s := by
    rintro c ⟨l, s, h1, h2⟩
    obtain ⟨e1, e2, e3⟩ := step c l s h1 h2
    exact ⟨_, e1, s, l, e2, e3⟩
  obtain ⟨d', hr, _⟩ := readTimes_edit hx hinv n d b hb ⟨lines, samples, hl, hs⟩
  refine ⟨_, d', hr, ?_⟩
  have key : ∀ m, getKey ((next (wffFix i))^[m] b) c!"LINES" = .ok (if m % 2 = 0 then lines else samples) ∧
      getKey ((next (wffFix i))^[m] b) c!"LINE_SAMPLES" = .ok (if m % 2 = 0 then samples else lines) := by
    intro m
    induction m with
    | zero => exact ⟨hl, hs⟩
    | succ m ih =>
      rw [Function.iterate_succ_apply']
      obtain ⟨_, e2, e3⟩ := step _ _ _ ih.1 ih.2
      rw [e2, e3]
      by_cases hm : m % 2 = 0
      · rw [if_pos hm, if_pos hm, if_neg (by omega), if_neg (by omega)]; exact ⟨rfl, rfl⟩
      · rw [if_neg hm, if_neg hm, if_pos (by omega), if_pos (by omega)]; exact ⟨rfl, rfl⟩
  have := key (n + 1)
  by_cases hm : n % 2 = 0
  · rw [if_neg (by omega), if_neg (by omega)] at this
    rw [if_pos hm, if_pos hm]; exact this
  · rw [if_pos (by omega), if_pos (by omega)] at this
    rw [if_neg hm, if_neg hm]; exact this

/-- the columns of a table, changed one by one -/
theorem onColumns_pointwise {f : Block → Except PyErr Block} {P : Block → Prop} (hf : ∀ c, P c → ∃ c', f c = .ok c' ∧ P c') :
    ∀ b : Block, (∀ e ∈ b, isColumn e = true → ∃ c, e = (c!"COLUMN", .node c) ∧ P c) →
      ∃ b', onColumns f b = .ok b' ∧ (∀ e ∈ b', isColumn e = true → ∃ c, e = (c!"COLUMN", .node c) ∧ P c) ∧
        ∀ (j : Nat) (c : Block), b[j]? = some (c!"COLUMN", .node c) → b'[j]? = some (c!"COLUMN", .node (next f c)) := by
  intro b
  induction b with
  | nil => exact fun _ => ⟨[], rfl, by simp, by simp⟩
  | cons e rest ih =>
    intro hb
    obtain ⟨r, hr, hP, hj⟩ := ih (fun e he => hb e (List.mem_cons_of_mem _ he))
    cases hc : isColumn e with
    | true =>
      obtain ⟨c, rfl, hpc⟩ := hb e List.mem_cons_self hc
      obtain ⟨c', hc', hp'⟩ := hf c hpc
      have hn : next f c = c' := by rw [next, hc']
      refine ⟨(c!"COLUMN", .node c') :: r, onColumns_true hc (by rw [inNode, hc']; rfl) hr, ?_, ?_⟩
      · intro e he hce
        rcases List.mem_cons.1 he with rfl | he
        · exact ⟨c', rfl, hp'⟩
        · exact hP e he hce
      · intro j c0 h0
        cases j with
        | zero =>
          have : c = c0 := by simpa using h0
          simp [← this, hn]
        | succ j => exact hj j c0 h0
    | false =>
      obtain ⟨k, x⟩ := e
      refine ⟨(k, x) :: r, onColumns_false hc hr, ?_, ?_⟩
      · intro e he hce
        rcases List.mem_cons.1 he with rfl | he
        · rw [hc] at hce; cases hce
        · exact hP e he hce
      · intro j c0 h0
        cases j with
        | zero =>
          have h0' : (k, x) = (c!"COLUMN", .node c0) := by simpa using h0
          rw [h0', isColumn_node] at hc
          simp at hc
        | succ j => exact hj j c0 h0

/-- the columns of a table changed again and again -/
theorem columns_iterate {i : Ids} {name : Str} {a : Around} {f : Block → Except PyErr Block} {P : Block → Prop}
    (hx : ∀ named, fixOf i name a named = .ok (.edit (onColumns f))) (hf : ∀ c, P c → ∃ c', f c = .ok c' ∧ P c')
    {d : Defs} {b : Block} (hb : d name = some b)
    (hP : ∀ e ∈ b, isColumn e = true → ∃ c, e = (c!"COLUMN", .node c) ∧ P c) (n : Nat) :
    ∃ b' d', readTimes i name a n d = .ok (some b', d') ∧
      ∀ (j : Nat) (c : Block), b[j]? = some (c!"COLUMN", .node c) → b'[j]? = some (c!"COLUMN", .node ((next f)^[n + 1] c)) := by
  have hinv : ∀ b, (∀ e ∈ b, isColumn e = true → ∃ c, e = (c!"COLUMN", .node c) ∧ P c) →
      ∃ b', onColumns f b = .ok b' ∧ ∀ e ∈ b', isColumn e = true → ∃ c, e = (c!"COLUMN", .node c) ∧ P c := by
    intro b hb
    obtain ⟨b', h1, h2, _⟩ := onColumns_pointwise hf b hb
    exact ⟨b', h1, h2⟩
  obtain ⟨d', hr, _⟩ := readTimes_edit hx hinv n d b hb hP
  refine ⟨_, d', hr, ?_⟩
  have key : ∀ m, (∀ e ∈ (next (onColumns f))^[m] b, isColumn e = true → ∃ c, e = (c!"COLUMN", .node c) ∧ P c) ∧
      ∀ (j : Nat) (c : Block), b[j]? = some (c!"COLUMN", .node c) →
        ((next (onColumns f))^[m] b)[j]? = some (c!"COLUMN", .node ((next f)^[m] c)) := by
    intro m
    induction m with
    | zero => exact ⟨hP, fun _ _ h => h⟩
    | succ m ih =>
      obtain ⟨b', h1, h2, h3⟩ := onColumns_pointwise hf _ ih.1
      have hn : next (onColumns f) ((next (onColumns f))^[m] b) = b' := by rw [next, h1]
      rw [Function.iterate_succ_apply', hn]
      refine ⟨h2, fun j c h => ?_⟩
      rw [Function.iterate_succ_apply' (next f)]
      exact h3 j _ (ih.2 j c h)
  exact (key (n + 1)).2

theorem moveNumbered_step {c : Block} {k s : Int} (hk : getKey c c!"COLUMN_NUMBER" = .ok (num k))
    (hs : getKey c c!"START_BYTE" = .ok (num s)) (m back : Int) :
    ∃ c', moveNumbered m back c = .ok c' ∧ getKey c' c!"COLUMN_NUMBER" = .ok (num k) ∧
      getKey c' c!"START_BYTE" = .ok (num (s - if k = m then back else 0)) := by
  have hv : valueIs c c!"COLUMN_NUMBER" (.int m) = .ok (decide (k = m)) := by
    simp only [valueIs, hk, num]
    congr 1
    by_cases h : k = m <;> simp [h]
  by_cases h : k = m
  · refine ⟨setKey c c!"START_BYTE" (num (s - back)), ?_, ?_, ?_⟩
    · simp only [moveNumbered, hv, h, decide_true, moveBack, hs, num]
    · rw [getKey_set_other _ (by decide)]; exact hk
    · rw [getKey_set, if_pos h]
  · refine ⟨c, ?_, hk, ?_⟩
    · simp only [moveNumbered, hv, h, decide_false]
    · rw [hs, if_neg h, Int.sub_zero]

theorem wcl_step {c : Block} {k s : Int} (hk : getKey c c!"COLUMN_NUMBER" = .ok (num k))
    (hs : getKey c c!"START_BYTE" = .ok (num s)) :
    ∃ c', wclColumn c = .ok c' ∧ getKey c' c!"COLUMN_NUMBER" = .ok (num k) ∧ getKey c' c!"START_BYTE" = .ok (num (s - shift k)) := by
  obtain ⟨c1, h1, h2, h3⟩ := moveNumbered_step hk hs 13 1
  obtain ⟨c2, g1, g2, g3⟩ := moveNumbered_step h2 h3 14 2
  refine ⟨c2, by rw [wclColumn, andNext, h1]; exact g1, g2, ?_⟩
  rw [g3]
  congr 2
  unfold shift
  by_cases h13 : k = 13
  · subst h13; simp
  · by_cases h14 : k = 14
    · subst h14; simp
    · simp [h13, h14]

/-- C103: the columns 13 and 14 of these tables begin one byte and two bytes earlier each time the definition is used -/
theorem C103_columns_move {i : Ids} (hd : i.dataSet = c!"PHX-M-MECA-2-NIEDR-V1.0")
    {x : Char} (hx : x = '0' ∨ x = '1' ∨ x = '2') {more : Str} (hp : i.productType = c!"MECA-EM1" ++ x :: more)
    (hi : i.instrumentName ≠ c!"PLASMA WAVE RECEIVER") (a : Around)
    (d : Defs) (b : Block) (hb : d c!"WCHEM_TABLE" = some b)
    (hcols : ∀ e ∈ b, isColumn e = true → ∃ c k s, e = (c!"COLUMN", .node c) ∧ getKey c c!"COLUMN_NUMBER" = .ok (num k) ∧
      getKey c c!"START_BYTE" = .ok (num s)) (n : Nat) :
    ∃ b' d', readTimes i c!"WCHEM_TABLE" a n d = .ok (some b', d') ∧
      ∀ (j : Nat) (c : Block) (k s : Int), b[j]? = some (c!"COLUMN", .node c) →
        getKey c c!"COLUMN_NUMBER" = .ok (num k) → getKey c c!"START_BYTE" = .ok (num s) →
        ∃ c', b'[j]? = some (c!"COLUMN", .node c') ∧ getKey c' c!"START_BYTE" = .ok (num (s - (n + 1) * shift k)) := by
  have hfix : ∀ named, fixOf i c!"WCHEM_TABLE" a named = .ok (.edit (onColumns wclColumn)) := by
    intro named
    have e3 : (i.instrumentName == c!"PLASMA WAVE RECEIVER") = false := beq_eq_false_iff_ne.2 hi
    dsimp only [fixOf]
    rw [hd, hp, e3]
    iterate 17 rw [fix_skip (by no)]
    exact fix_take (by rcases hx with rfl | rfl | rfl <;> rfl)
  have hP : ∀ c, (∃ k s, getKey c c!"COLUMN_NUMBER" = .ok (num k) ∧ getKey c c!"START_BYTE" = .ok (num s)) →
      ∃ c', wclColumn c = .ok c' ∧ ∃ k s, getKey c' c!"COLUMN_NUMBER" = .ok (num k) ∧ getKey c' c!"START_BYTE" = .ok (num s) := by
    rintro c ⟨k, s, h1, h2⟩
    obtain ⟨c', e1, e2, e3⟩ := wcl_step h1 h2
    exact ⟨c', e1, k, _, e2, e3⟩
  obtain ⟨b', d', hr, hj⟩ := columns_iterate hfix hP hb (fun e he hc => by
    obtain ⟨c, k, s, e1, e2, e3⟩ := hcols e he hc
    exact ⟨c, e1, k, s, e2, e3⟩) n
  refine ⟨b', d', hr, fun j c k s h1 h2 h3 => ⟨_, hj j c h1, ?_⟩⟩
  have key : ∀ m : Nat, getKey ((next wclColumn)^[m] c) c!"COLUMN_NUMBER" = .ok (num k) ∧
      getKey ((next wclColumn)^[m] c) c!"START_BYTE" = .ok (num (s - m * shift k)) := by
    intro m
    induction m with
    | zero => exact ⟨h2, by simpa using h3⟩
    | succ m ih =>
      obtain ⟨c', e1, e2, e3⟩ := wcl_step ih.1 ih.2
      have hn : next wclColumn ((next wclColumn)^[m] c) = c' := by rw [next, e1]
      rw [Function.iterate_succ_apply', hn, e2, e3]
      refine ⟨rfl, ?_⟩
      congr 2
      push_cast
      ring
  have := (key (n + 1)).2
  push_cast at this
  exact this

theorem sweep_step {c : Block} {s : Str} (hn : getKey c c!"NAME" = .ok (txt s)) (hs : c!"SWEEP" <:+: s) :
    ∃ c', sweepColumn c = .ok c' ∧ getKey c' c!"NAME" = .ok (txt s) ∧
      (entries c' c!"ITEM_BYTES").length = (entries c c!"ITEM_BYTES").length + 1 := by
  refine ⟨setKey (addKey c c!"ITEM_BYTES" (num 4)) c!"BYTES" (num 284), ?_, ?_, ?_⟩
  · simp only [sweepColumn, valueHas, hn, txt, (Datatypes.contains_iff _ _).2 hs, onlyIf]
  · rw [getKey_set_other _ (by decide), getKey_add_other _ (by decide)]; exact hn
  · rw [entries_set_other _ (by decide)]
    simp [entries, addKey]

/-- C103: the columns named SWEEP of these tables get another ITEM_BYTES each time the definition is used -/
theorem C103_item_bytes {i : Ids} (hd : i.dataSet ∈ sweeps)
    (hi : i.instrumentName ≠ c!"PLASMA WAVE RECEIVER") (a : Around) (d : Defs) (b : Block) (hb : d c!"TABLE" = some b)
    (hcols : ∀ e ∈ b, isColumn e = true → ∃ c s, e = (c!"COLUMN", .node c) ∧ getKey c c!"NAME" = .ok (txt s)) (n : Nat) :
    ∃ b' d', readTimes i c!"TABLE" a n d = .ok (some b', d') ∧
      ∀ (j : Nat) (c : Block) (s : Str), b[j]? = some (c!"COLUMN", .node c) →
        getKey c c!"NAME" = .ok (txt s) → c!"SWEEP" <:+: s →
        ∃ c', b'[j]? = some (c!"COLUMN", .node c') ∧
          (c'.filter (fun e => e.1 == c!"ITEM_BYTES")).length = (c.filter (fun e => e.1 == c!"ITEM_BYTES")).length + (n + 1) := by
  have hfix : ∀ named, fixOf i c!"TABLE" a named = .ok (.edit (praFix i)) := by
    intro named
    have e3 : (i.instrumentName == c!"PLASMA WAVE RECEIVER") = false := beq_eq_false_iff_ne.2 hi
    dsimp only [fixOf]
    rw [e3]
    rcases (by simpa [sweeps] using hd : _ ∨ _ ∨ _) with hd | hd | hd <;> rw [hd] <;>
      (iterate 16 rw [fix_skip (by no)]) <;> exact fix_take (by rfl)
  have hpra : praFix i = onColumns sweepColumn := by
    funext b
    have : praOuter.contains i.dataSet = true := by simpa [sweeps, praOuter] using hd
    rw [praFix, this, if_pos rfl]
  rw [hpra] at hfix
  have hP : ∀ c, (∃ s, getKey c c!"NAME" = .ok (txt s)) → ∃ c', sweepColumn c = .ok c' ∧ ∃ s, getKey c' c!"NAME" = .ok (txt s) := by
    rintro c ⟨s, hs⟩
    by_cases h : c!"SWEEP" <:+: s
    · obtain ⟨c', e1, e2, _⟩ := sweep_step hs h
      exact ⟨c', e1, s, e2⟩
    · have : contains s c!"SWEEP" = false := Bool.eq_false_iff.2 (fun hc => h ((Datatypes.contains_iff _ _).1 hc))
      exact ⟨c, by simp only [sweepColumn, valueHas, hs, txt, this, onlyIf], s, hs⟩
  obtain ⟨b', d', hr, hj⟩ := columns_iterate hfix hP hb (fun e he hc => by
    obtain ⟨c, s, e1, e2⟩ := hcols e he hc
    exact ⟨c, e1, s, e2⟩) n
  refine ⟨b', d', hr, fun j c s h1 h2 h3 => ⟨_, hj j c h1, ?_⟩⟩
  have key : ∀ m : Nat, getKey ((next sweepColumn)^[m] c) c!"NAME" = .ok (txt s) ∧
      (entries ((next sweepColumn)^[m] c) c!"ITEM_BYTES").length = (entries c c!"ITEM_BYTES").length + m := by
    intro m
    induction m with
    | zero => exact ⟨h2, rfl⟩
    | succ m ih =>
      obtain ⟨c', e1, e2, e3⟩ := sweep_step ih.1 h3
      have hn : next sweepColumn ((next sweepColumn)^[m] c) = c' := by rw [next, e1]
      rw [Function.iterate_succ_apply', hn, e3, ih.2]
      exact ⟨e2, rfl⟩
  exact (key (n + 1)).2

/-! ### examples -/

/-- a WFF/ATM image -/
def sedan : Ids where
  dataSet := c!"WFF-E-ATM-1/5-V1.0"
  product := c!"SEDAN2X2"

/-- its definition -/
def sedanImage : Block := [(c!"LINES", num 300), (c!"LINE_SAMPLES", num 400), (c!"SAMPLE_BITS", num 32)]

/-- the first time, 400 lines of 300 samples; the second time, 300 lines of 400 samples -/
example (a : Around) : ∃ b b' d d', readTimes sedan c!"IMAGE" a 0 (fun n => if n = c!"IMAGE" then some sedanImage else none) =
      .ok (some b, d) ∧ getKey b c!"LINES" = .ok (num 400) ∧ getKey b c!"LINE_SAMPLES" = .ok (num 300) ∧
    readTimes sedan c!"IMAGE" a 1 (fun n => if n = c!"IMAGE" then some sedanImage else none) =
      .ok (some b', d') ∧ getKey b' c!"LINES" = .ok (num 300) ∧ getKey b' c!"LINE_SAMPLES" = .ok (num 400) := by
  obtain ⟨b, d, h1, h2, h3⟩ := C103_lines_and_samples (i := sedan) rfl ⟨c!"EDAN2X2", rfl⟩ a
    (fun n => if n = c!"IMAGE" then some sedanImage else none) sedanImage rfl (num 300) (num 400) rfl rfl 0
  obtain ⟨b', d', h1', h2', h3'⟩ := C103_lines_and_samples (i := sedan) rfl ⟨c!"EDAN2X2", rfl⟩ a
    (fun n => if n = c!"IMAGE" then some sedanImage else none) sedanImage rfl (num 300) (num 400) rfl rfl 1
  exact ⟨b, b', d, d', h1, h2, h3, h1', h2', h3'⟩

/-- a Phoenix table -/
def wcl : Ids where
  dataSet := c!"PHX-M-MECA-2-NIEDR-V1.0"
  productType := c!"MECA-EM10"

/-- with three columns -/
def wclTable : Block :=
  [(c!"ROWS", num 5),
   (c!"COLUMN", .node [(c!"COLUMN_NUMBER", num 12), (c!"START_BYTE", num 30)]),
   (c!"COLUMN", .node [(c!"COLUMN_NUMBER", num 13), (c!"START_BYTE", num 33)]),
   (c!"COLUMN", .node [(c!"COLUMN_NUMBER", num 14), (c!"START_BYTE", num 36)])]

/-- the third time, the last column is taken to begin at byte 30 -/
example (a : Around) : ∃ b d, readTimes wcl c!"WCHEM_TABLE" a 2 (fun n => if n = c!"WCHEM_TABLE" then some wclTable else none) =
      .ok (some b, d) ∧ ∃ c, b[3]? = some (c!"COLUMN", .node c) ∧ getKey c c!"START_BYTE" = .ok (num 30) := by
  have hcols : ∀ e ∈ wclTable, isColumn e = true → ∃ c k s, e = (c!"COLUMN", .node c) ∧
      getKey c c!"COLUMN_NUMBER" = .ok (num k) ∧ getKey c c!"START_BYTE" = .ok (num s) := by
    intro e he hc
    simp only [wclTable, List.mem_cons, List.not_mem_nil, or_false] at he
    rcases he with rfl | rfl | rfl | rfl
    · simp [isColumn, num] at hc
    · exact ⟨_, 12, 30, rfl, rfl, rfl⟩
    · exact ⟨_, 13, 33, rfl, rfl, rfl⟩
    · exact ⟨_, 14, 36, rfl, rfl, rfl⟩
  obtain ⟨b, d, h1, h2⟩ := C103_columns_move (i := wcl) rfl (.inl rfl) (more := []) rfl (by decide) a
    (fun n => if n = c!"WCHEM_TABLE" then some wclTable else none) wclTable rfl hcols 2
  exact ⟨b, d, h1, h2 3 _ 14 36 rfl rfl rfl⟩

/-- a PRA table -/
def pra : Ids where
  dataSet := c!"VG2-S-PRA-3-RDR-LOWBAND-6SEC-V1.0"

/-- with a column -/
def praTable : Block := [(c!"COLUMN", .node [(c!"NAME", txt c!"SWEEP1"), (c!"BYTES", num 4)])]

/-- the second time, the column has two values of ITEM_BYTES -/
example (a : Around) : ∃ b d, readTimes pra c!"TABLE" a 1 (fun n => if n = c!"TABLE" then some praTable else none) = .ok (some b, d) ∧
    ∃ c, b[0]? = some (c!"COLUMN", .node c) ∧ (c.filter (fun e => e.1 == c!"ITEM_BYTES")).length = 2 := by
  have hcols : ∀ e ∈ praTable, isColumn e = true → ∃ c s, e = (c!"COLUMN", .node c) ∧ getKey c c!"NAME" = .ok (txt s) := by
    intro e he _
    rw [List.mem_singleton.1 he]
    exact ⟨_, c!"SWEEP1", rfl, rfl⟩
  obtain ⟨b, d, h1, h2⟩ := C103_item_bytes (i := pra) (by decide) (by decide) a
    (fun n => if n = c!"TABLE" then some praTable else none) praTable rfl hcols 1
  exact ⟨b, d, h1, h2 0 _ c!"SWEEP1" rfl rfl ⟨[], c!"1", rfl⟩⟩

/-- a Mini-RF mosaic: 5760 lines however often the definition is used -/
def mosaic : Ids where
  dataSet := c!"LRO-L-MRFLRO-5-GLOBAL-MOSAIC-V1.0"
  product := c!"GLOBAL_S4_32PPD_SIMP_0C"

example (a : Around) (n : Nat) :
    ∃ b d, readTimes mosaic c!"IMAGE" a n (fun n => if n = c!"IMAGE" then some sedanImage else none) = .ok (some b, d) ∧
      getKey b c!"LINES" = .ok (num 5760) ∧ getKey b c!"LINE_SAMPLES" = .ok (num 11520) ∧
      getKey b c!"SAMPLE_BITS" = .ok (num 32) := by
  obtain ⟨b, d, h1, h2, h3⟩ := C102_corrected_values mosaic c!"IMAGE" a
    (fun n => if n = c!"IMAGE" then some sedanImage else none) sedanImage rfl _
    (.miniRf rfl ⟨[], c!"_SIMP_0C", rfl⟩)
  have hm : ¬ Moving mosaic c!"IMAGE" := by
    rintro (⟨h, _⟩ | ⟨h, _⟩ | ⟨_, h⟩)
    · exact absurd h (by decide +kernel)
    · exact absurd h (by decide +kernel)
    · exact absurd h (by decide +kernel)
  refine ⟨b, d, C102_reading_again hm h1 n, h2 (c!"LINES", .int 5760) (by simp), h2 (c!"LINE_SAMPLES", .int 11520) (by simp), ?_⟩
  exact h3 c!"SAMPLE_BITS" (by decide +kernel)

end Verif.Special
