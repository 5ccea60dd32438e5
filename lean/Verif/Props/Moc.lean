/-
MGS MOC images (C24): predictive decompression.
-/
import Verif.Lemmas.MocTree

namespace Verif.Moc
open Verif Verif.Py Verif.Moc.Spec

/-! ### tables from trees -/

theorem inner_node (v : Nat) (z o : Node) (h : ¬ (z = .none ∧ o = .none)) : (Node.node v z o).inner = 1 + z.inner + o.inner := by
  cases z <;> cases o <;> simp_all [Node.inner]

theorem full_node (v : Nat) (z o : Node) (h : ¬ (z = .none ∧ o = .none)) : (Node.node v z o).full = (z.full && o.full) := by
  cases z <;> cases o <;> simp_all [Node.full]

theorem inner_zero {n : Node} (hf : n.full = true) (h : n.inner = 0) : ∃ v, v < 256 ∧ n = .node v .none .none := by
  cases n with
  | none => simp [Node.full] at hf
  | node v z o =>
    by_cases hl : z = .none ∧ o = .none
    · obtain ⟨rfl, rfl⟩ := hl
      exact ⟨v, by simpa [Node.full] using hf, rfl⟩
    · rw [inner_node v z o hl] at h
      omega

theorem inner_pos {n : Node} (hf : n.full = true) (h : 0 < n.inner) :
    ∃ v z o, n = .node v z o ∧ ¬ (z = .none ∧ o = .none) ∧ z.full = true ∧ o.full = true ∧ n.inner = 1 + z.inner + o.inner := by
  cases n with
  | none => simp [Node.full] at hf
  | node v z o =>
    by_cases hl : z = .none ∧ o = .none
    · obtain ⟨rfl, rfl⟩ := hl
      simp [Node.inner] at h
    · have := full_node v z o hl
      rw [this, Bool.and_eq_true] at hf
      exact ⟨v, z, o, rfl, hl, hf.1, hf.2, inner_node v z o hl⟩

theorem leaf_iff {n : Node} (hf : n.full = true) : n.present = true ∧ (n.leaf = true ↔ n.inner = 0) ∧ (n.leaf = true → n.value < 256) := by
  cases n with
  | none => simp [Node.full] at hf
  | node v z o =>
    by_cases h : z = .none ∧ o = .none
    · obtain ⟨rfl, rfl⟩ := h
      simpa [Node.present, Node.leaf, Node.inner, Node.value, Node.full] using hf
    · have h1 := inner_node v z o h
      have : (Node.node v z o).leaf = false := by cases z <;> cases o <;> simp_all [Node.leaf]
      simp [this, h1, Node.present]

/-- the tables from line `i` on have the tree `n` in preorder -/
def Holds (t : Tables) : Node → Nat → Prop
  | .none, _ => True
  | .node _ z o, i =>
    (if z.leaf then (t i).more0 = false ∧ (t i).zero = z.value
      else (t i).more0 = true ∧ (t i).zero = i + 1 ∧ Holds t z (i + 1)) ∧
    (if o.leaf then (t i).more1 = false ∧ (t i).one = o.value
      else (t i).more1 = true ∧ (t i).one = i + z.inner + 1 ∧ Holds t o (i + z.inner + 1))

theorem holds_congr (n : Node) : ∀ (t t' : Tables) (i : Nat), n.full = true → (∀ j, i ≤ j → j < i + n.inner → t j = t' j) →
    0 < n.inner → Holds t n i → Holds t' n i := by
  induction n with
  | none => intros; trivial
  | node v z o ihz iho =>
    intro t t' i hf heq hpos h
    obtain ⟨v', z', o', he, hl, hz, ho, hin⟩ := inner_pos hf hpos
    injection he with _ h1 h2
    subst h1; subst h2
    rw [hin] at heq
    rw [Holds] at h ⊢
    rw [← heq i (by omega) (by omega)]
    obtain ⟨hz1, hz2, hz3⟩ := leaf_iff hz
    obtain ⟨ho1, ho2, ho3⟩ := leaf_iff ho
    constructor
    · by_cases hl : z.leaf = true
      · simpa only [hl, if_true] using h.1
      · have h1 := h.1
        simp only [hl] at h1 ⊢
        have : z.inner ≠ 0 := fun h => hl (hz2.2 h)
        exact ⟨h1.1, h1.2.1, ihz t t' (i + 1) hz (fun j h1 h2 => heq j (by omega) (by omega)) (by omega) h1.2.2⟩
    · by_cases hl : o.leaf = true
      · simpa only [hl, if_true] using h.2
      · have h1 := h.2
        simp only [hl] at h1 ⊢
        have : o.inner ≠ 0 := fun h => hl (ho2.2 h)
        exact ⟨h1.1, h1.2.1, iho t t' _ ho (fun j h1 h2 => heq j (by omega) (by omega)) (by omega) h1.2.2⟩

/-- A full tree with at most 256 inner nodes fits the tables, and the tables then have it. -/
theorem tablefy_holds (n : Node) : ∀ (t : Tables) (i : Nat), n.full = true → 0 < n.inner → i + n.inner ≤ 256 →
    ∃ t', htTablefy n t i = .ok (t', i + n.inner - 1) ∧ (∀ j, j < i ∨ i + n.inner ≤ j → t' j = t j) ∧ Holds t' n i := by
  induction n with
  | none => intro t i hf; simp [Node.full] at hf
  | node v z o ihz iho =>
    intro t i hf hpos hle
    obtain ⟨v', z', o', he, hl, hz, ho, hin⟩ := inner_pos hf hpos
    injection he with _ h1 h2
    subst h1; subst h2
    rw [hin] at hle ⊢
    rw [htTablefy]
    obtain ⟨hz1, hz2, hz3⟩ := leaf_iff hz
    obtain ⟨ho1, ho2, ho3⟩ := leaf_iff ho
    simp only [hz1, ho1, if_true]
    -- the zero branch
    have hfirst : ∃ t1, (if z.leaf = true then (store t i z.value fun e => { e with more0 := false, zero := z.value }).map fun t' => (t', i)
          else (store t i (i + 1) fun e => { e with more0 := true, zero := i + 1 }).bind fun t' => htTablefy z t' (i + 1))
          = .ok (t1, i + z.inner) ∧ (∀ j, j < i ∨ i + 1 + z.inner ≤ j → t1 j = t j) ∧
          (if z.leaf then (t1 i).more0 = false ∧ (t1 i).zero = z.value
            else (t1 i).more0 = true ∧ (t1 i).zero = i + 1 ∧ Holds t1 z (i + 1)) := by
      by_cases h0 : z.leaf = true
      · have hz0 := hz2.1 h0
        refine ⟨fun j => if j = i then { t i with more0 := false, zero := z.value } else t j, ?_, ?_, ?_⟩
        · rw [if_pos h0, hz0]
          simp [store, hz3 h0, show i < 256 by omega, Except.map]
        · intro j hj
          have : j ≠ i := by omega
          simp [this]
        · rw [if_pos h0]; simp
      · rw [if_neg h0]
        have hz0 : z.inner ≠ 0 := fun h => h0 (hz2.2 h)
        have hst : store t i (i + 1) (fun e => { e with more0 := true, zero := i + 1 }) =
            .ok (fun j => if j = i then { t i with more0 := true, zero := i + 1 } else t j) := by
          simp [store, show i < 256 by omega, show i + 1 < 256 by omega]
        obtain ⟨t1, e1, e2, e3⟩ := ihz (fun j => if j = i then { t i with more0 := true, zero := i + 1 } else t j) (i + 1) hz (by omega) (by omega)
        refine ⟨t1, ?_, ?_, ?_⟩
        · rw [hst]
          simp only [Except.bind]
          rw [e1]
          congr 2
          omega
        · intro j hj
          rw [e2 j (by omega)]
          have : j ≠ i := by omega
          simp [this]
        · rw [if_neg h0, e2 i (by omega)]
          exact ⟨by simp, by simp, e3⟩
    obtain ⟨t1, hA, hB, hC⟩ := hfirst
    rw [hA]
    simp only [Except.bind]
    have hkeep : ∀ t2 : Tables, (∀ j, i < j → j < i + 1 + z.inner → t2 j = t1 j) → (t2 i).more0 = (t1 i).more0 → (t2 i).zero = (t1 i).zero →
        (if z.leaf then (t2 i).more0 = false ∧ (t2 i).zero = z.value
            else (t2 i).more0 = true ∧ (t2 i).zero = i + 1 ∧ Holds t2 z (i + 1)) := by
      intro t2 h1 h2 h3
      rw [h2, h3]
      by_cases h0 : z.leaf = true
      · simpa only [h0, if_true] using hC
      · have hz0 : z.inner ≠ 0 := fun h => h0 (hz2.2 h)
        simp only [h0] at hC ⊢
        exact ⟨hC.1, hC.2.1, holds_congr z t1 t2 (i + 1) hz (fun j a b => (h1 j (by omega) (by omega)).symm) (by omega) hC.2.2⟩
    -- the one branch
    by_cases h0 : o.leaf = true
    · have ho0 := ho2.1 h0
      refine ⟨fun j => if j = i then { t1 i with more1 := false, one := o.value } else t1 j, ?_, ?_, ?_⟩
      · rw [if_pos h0, ho0]
        simp only [store, ho3 h0, show i < 256 by omega, Except.map, if_true]
        congr 2
        omega
      · intro j hj
        have : j ≠ i := by omega
        simp only [this, if_false]
        exact hB j (by omega)
      · rw [Holds]
        refine ⟨hkeep (fun j => if j = i then { t1 i with more1 := false, one := o.value } else t1 j) ?_ (by simp) (by simp), ?_⟩
        · intro j h1 h2
          have : j ≠ i := by omega
          simp [this]
        · simp [h0]
    · rw [if_neg h0]
      have ho0 : o.inner ≠ 0 := fun h => h0 (ho2.2 h)
      have hst : store t1 i (i + z.inner + 1) (fun e => { e with more1 := true, one := i + z.inner + 1 }) =
          .ok (fun j => if j = i then { t1 i with more1 := true, one := i + z.inner + 1 } else t1 j) := by
        simp [store, show i < 256 by omega, show i + z.inner + 1 < 256 by omega]
      obtain ⟨t2, e1, e2, e3⟩ := iho (fun j => if j = i then { t1 i with more1 := true, one := i + z.inner + 1 } else t1 j)
        (i + z.inner + 1) ho (by omega) (by omega)
      have hti : t2 i = { t1 i with more1 := true, one := i + z.inner + 1 } := by rw [e2 i (by omega)]; simp
      refine ⟨t2, ?_, ?_, ?_⟩
      · rw [hst]
        dsimp only
        rw [e1]
        congr 2
        omega
      · intro j hj
        rw [e2 j (by omega)]
        have : j ≠ i := by omega
        simp only [this, if_false]
        exact hB j (by omega)
      · rw [Holds]
        refine ⟨hkeep _ ?_ (by rw [hti]) (by rw [hti]), ?_⟩
        · intro j h1 h2
          rw [e2 j (by omega)]
          have : j ≠ i := by omega
          simp [this]
        · simp only [h0, hti]
          exact ⟨trivial, trivial, e3⟩

/-! ### bits -/

/-- the reader at bit `pos` -/
def posAt (data : List Nat) (pos : Nat) : BitPos := ⟨data.getD (pos / 8) 0 / 2 ^ (pos % 8), pos % 8, pos / 8⟩

theorem advance_posAt (data : List Nat) (pos : Nat) : advance data (posAt data pos) = posAt data (pos + 1) := by
  unfold advance posAt
  by_cases h : pos % 8 = 7
  · have h1 : (pos + 1) % 8 = 0 := by omega
    have h2 : (pos + 1) / 8 = pos / 8 + 1 := by omega
    simp [h, h1, h2]
  · have h1 : (pos + 1) % 8 = pos % 8 + 1 := by omega
    have h2 : (pos + 1) / 8 = pos / 8 := by omega
    rw [h1, h2, if_neg (by simp only; omega)]
    simp only [Nat.pow_succ, Nat.div_div_eq_div_mul]

theorem queue_bit (data : List Nat) (pos : Nat) : (posAt data pos).queue % 2 = (bit data pos).toNat := by
  unfold posAt bit
  simp only
  rw [Nat.testBit_eq_decide_div_mod_eq]
  by_cases h : data.getD (pos / 8) 0 / 2 ^ (pos % 8) % 2 = 1
  · rw [h]; rfl
  · have : data.getD (pos / 8) 0 / 2 ^ (pos % 8) % 2 = 0 := by omega
    rw [this]; rfl

theorem align_posAt (data : List Nat) (p : Nat) : (align (posAt data p)).output = (p + 15) / 16 * 2 := by
  by_cases h : p % 8 = 0
  · by_cases h2 : p / 8 % 2 = 1
    · simp [align, posAt, h, h2]; omega
    · simp [align, posAt, h, h2]; omega
  · by_cases h2 : (p / 8 + 1) % 2 = 1
    · simp [align, posAt, h, h2]; omega
    · simp [align, posAt, h, h2]; omega

/-- the bits from `pos` on are `bits` -/
def Reads (data : List Nat) : Nat → List Bool → Prop
  | _, [] => True
  | pos, b :: bs => bit data pos = b ∧ Reads data (pos + 1) bs

theorem reads_append (data : List Nat) (pos : Nat) (a b : List Bool) :
    Reads data pos (a ++ b) ↔ Reads data pos a ∧ Reads data (pos + a.length) b := by
  induction a generalizing pos with
  | nil => simp [Reads]
  | cons x xs ih =>
    simp only [List.cons_append, Reads, ih, List.length_cons, and_assoc]
    rw [show pos + (xs.length + 1) = pos + 1 + xs.length by omega]

/-- walking down the tables is walking down the tree -/
theorem walk_find (t : Tables) (data : List Nat) (n : Node) : ∀ (i : Nat) (bits : List Bool) (v pos fuel : Nat),
    n.full = true → 0 < n.inner → Holds t n i → n.find bits = some v → Reads data pos bits → bits.length ≤ fuel →
    walk t data fuel i (posAt data pos) = .ok (v, posAt data (pos + bits.length)) := by
  induction n with
  | none => intro i bits v pos fuel hf; simp [Node.full] at hf
  | node u z o ihz iho =>
    intro i bits v pos fuel hf hpos h hfind hr hlen
    obtain ⟨v', z', o', he, hl, hz, ho, hin⟩ := inner_pos hf hpos
    injection he with _ h1 h2
    subst h1; subst h2
    obtain ⟨hz1, hz2, hz3⟩ := leaf_iff hz
    obtain ⟨ho1, ho2, ho3⟩ := leaf_iff ho
    cases bits with
    | nil =>
      exfalso
      cases z <;> cases o <;> simp_all [Node.find]
    | cons b bs =>
      have hfind' : (if b then o.find bs else z.find bs) = some v := by
        cases z <;> cases o <;> simp_all [Node.find]
      have hleaf : ∀ m : Node, m.leaf = true → m.find bs = some v → bs = [] ∧ m.value = v := by
        intro m hm hmf
        cases m with
        | none => simp [Node.leaf] at hm
        | node w a c =>
          cases a <;> cases c <;> simp [Node.leaf] at hm
          cases bs with
          | nil => simpa [Node.find, Node.value] using hmf
          | cons x xs => cases x <;> simp [Node.find] at hmf
      cases fuel with
      | zero => simp at hlen
      | succ fuel =>
        rw [Reads] at hr
        rw [Holds] at h
        simp only [List.length_cons] at hlen
        rw [walk, queue_bit, hr.1, advance_posAt]
        cases b with
        | false =>
          simp only [Bool.toNat_false, if_true]
          by_cases hlf : z.leaf = true
          · obtain ⟨hb, hv⟩ := hleaf z hlf (by simpa using hfind')
            have h1 := h.1
            simp only [hlf, if_true] at h1
            subst hb
            simp [h1.1, h1.2, hv]
          · have h1 := h.1
            have : z.inner ≠ 0 := fun h => hlf (hz2.2 h)
            simp only [hlf] at h1
            simp only [h1.1, if_true, h1.2.1]
            rw [ihz (i + 1) bs v (pos + 1) fuel hz (by omega) h1.2.2 (by simpa using hfind') hr.2 (by omega)]
            simp only [List.length_cons]
            congr 3
            omega
        | true =>
          simp only [Bool.toNat_true, Nat.one_ne_zero, if_false]
          by_cases hlf : o.leaf = true
          · obtain ⟨hb, hv⟩ := hleaf o hlf (by simpa using hfind')
            have h1 := h.2
            simp only [hlf, if_true] at h1
            subst hb
            simp [h1.1, h1.2, hv]
          · have h1 := h.2
            have : o.inner ≠ 0 := fun h => hlf (ho2.2 h)
            simp only [hlf] at h1
            simp only [h1.1, if_true, h1.2.1]
            rw [iho _ bs v (pos + 1) fuel ho (by omega) h1.2.2 (by simpa using hfind') hr.2 (by omega)]
            simp only [List.length_cons]
            congr 3
            omega

/-- and it always ends with a byte -/
theorem walk_total (t : Tables) (data : List Nat) (n : Node) : ∀ (i : Nat) (b : BitPos) (fuel : Nat),
    n.full = true → 0 < n.inner → Holds t n i → n.inner ≤ fuel → ∃ v b', walk t data fuel i b = .ok (v, b') ∧ v < 256 := by
  induction n with
  | none => intro i b fuel hf; simp [Node.full] at hf
  | node u z o ihz iho =>
    intro i b fuel hf hpos h hlen
    obtain ⟨v', z', o', he, hl, hz, ho, hin⟩ := inner_pos hf hpos
    injection he with _ h1 h2
    subst h1; subst h2
    obtain ⟨hz1, hz2, hz3⟩ := leaf_iff hz
    obtain ⟨ho1, ho2, ho3⟩ := leaf_iff ho
    cases fuel with
    | zero => omega
    | succ fuel =>
      rw [Holds] at h
      rw [walk]
      by_cases hq : b.queue % 2 = 0
      · rw [if_pos hq]
        by_cases hlf : z.leaf = true
        · have h1 := h.1
          simp only [hlf, if_true] at h1
          simp only [h1.1, h1.2]
          exact ⟨_, _, rfl, hz3 hlf⟩
        · have h1 := h.1
          have : z.inner ≠ 0 := fun h => hlf (hz2.2 h)
          simp only [hlf] at h1
          simp only [h1.1, if_true, h1.2.1]
          exact ihz (i + 1) _ fuel hz (by omega) h1.2.2 (by omega)
      · rw [if_neg hq]
        by_cases hlf : o.leaf = true
        · have h1 := h.2
          simp only [hlf, if_true] at h1
          simp only [h1.1, h1.2]
          exact ⟨_, _, rfl, ho3 hlf⟩
        · have h1 := h.2
          have : o.inner ≠ 0 := fun h => hlf (ho2.2 h)
          simp only [hlf] at h1
          simp only [h1.1, if_true, h1.2.1]
          exact iho _ _ fuel ho (by omega) h1.2.2 (by omega)

/-- what is needed of decoding tables: they decode each codeword, and never fail -/
structure Decodes (t : Tables) (cw : Nat → List Bool) (v : Nat → Nat) : Prop where
  code : ∀ s, s < 256 → ∀ data pos, Reads data pos (cw s) → nextValue t data (posAt data pos) = .ok (v s, posAt data (pos + (cw s).length))
  total : ∀ data b, ∃ x b', nextValue t data b = .ok (x, b') ∧ x < 256
  pos : ∀ s, s < 256 → 0 < (cw s).length
  byte : ∀ s, s < 256 → v s < 256

/-- every path from the root has at most as many steps as there are inner nodes -/
theorem find_length (n : Node) : ∀ bits v, n.full = true → n.find bits = some v → bits.length ≤ n.inner := by
  induction n with
  | none => intro bits v hf; simp [Node.full] at hf
  | node u z o ihz iho =>
    intro bits v hf h
    by_cases hpos : 0 < (Node.node u z o).inner
    · obtain ⟨v', z', o', he, hl, hz, ho, hin⟩ := inner_pos hf hpos
      injection he with _ h1 h2
      subst h1; subst h2
      rw [hin]
      cases bits with
      | nil => simp
      | cons b bs =>
        have hfind' : (if b then o.find bs else z.find bs) = some v := by
          cases z <;> cases o <;> simp_all [Node.find]
        cases b with
        | false =>
          have := ihz bs v hz (by simpa using hfind')
          simp only [List.length_cons]; omega
        | true =>
          have := iho bs v ho (by simpa using hfind')
          simp only [List.length_cons]; omega
    · obtain ⟨w, _, he⟩ := inner_zero hf (by omega)
      injection he with _ h1 h2
      subst h1; subst h2
      cases bits with
      | nil => simp
      | cons b bs => cases b <;> simp [Node.find] at h

/-- the eight tables of the code -/
theorem tables_decode (id : Nat) (b l r : List Nat) (h : codeTables[id]? = some (b, l, r)) :
    ∃ t, makeHuffmanTree id = .ok t ∧ Decodes t (codeword b l) (fun s => r.getD s 0) := by
  have := codes_check (b, l, r) (List.mem_of_getElem? h)
  dsimp only at this
  obtain ⟨hfull, hpos, hle, hall⟩ := check_entry this
  obtain ⟨t, h1, _, h3⟩ := tablefy_holds (htTreeGen b l r) (fun _ => {}) 0 hfull hpos (by omega)
  refine ⟨t, ?_, ?_, ?_, ?_, ?_⟩
  · unfold makeHuffmanTree
    rw [h]
    simp only [h1, Except.map]
  · intro s hs data pos hr
    have hf := (hall s hs).1
    exact walk_find t data _ 0 _ _ pos 256 hfull hpos h3 hf hr (by
      have := find_length _ _ _ hfull hf
      omega)
  · intro data b
    exact walk_total t data _ 0 b 256 hfull hpos h3 hle
  · intro s hs
    exact (hall s hs).2.1
  · intro s hs
    exact (hall s hs).2.2

/-! ### packed bits -/

theorem ofBits_testBit (l : List Bool) (j : Nat) : (ofBits l).testBit j = l.getD j false := by
  induction l generalizing j with
  | nil => simp [ofBits]
  | cons b bs ih =>
    cases j with
    | zero =>
      rw [ofBits, Nat.testBit_zero]
      cases b <;> simp <;> omega
    | succ j =>
      rw [ofBits, Nat.testBit_succ, show (b.toNat + 2 * ofBits bs) / 2 = ofBits bs by cases b <;> simp <;> omega, ih]
      simp

theorem reads_iff (data : List Nat) (pos : Nat) (bits : List Bool) :
    Reads data pos bits ↔ ∀ i, i < bits.length → bit data (pos + i) = bits.getD i false := by
  induction bits generalizing pos with
  | nil => simp [Reads]
  | cons b bs ih =>
    rw [Reads, ih]
    constructor
    · rintro ⟨h1, h2⟩ i hi
      cases i with
      | zero => simpa using h1
      | succ i =>
        have := h2 i (by simpa using hi)
        rw [show pos + (i + 1) = pos + 1 + i by omega, this]
        simp
    · intro h
      refine ⟨by simpa using h 0 (by simp), fun i hi => ?_⟩
      have := h (i + 1) (by simpa using hi)
      rw [show pos + 1 + i = pos + (i + 1) by omega, this]
      simp

theorem pack_length (bits : List Bool) : (pack bits).length = (bits.length + 7) / 8 := by simp [pack]

theorem getD_right (a b : List Nat) (i d : Nat) (h : a.length ≤ i) : (a ++ b).getD i d = b.getD (i - a.length) d := by
  simp [List.getD_eq_getElem?_getD, List.getElem?_append_right h]

theorem getD_left (a b : List Nat) (i d : Nat) (h : i < a.length) : (a ++ b).getD i d = a.getD i d := by
  simp [List.getD_eq_getElem?_getD, List.getElem?_append_left h]

theorem reads_pack (pre post : List Nat) (bits : List Bool) : Reads (pre ++ pack bits ++ post) (8 * pre.length) bits := by
  rw [reads_iff]
  intro i hi
  unfold bit
  rw [show (8 * pre.length + i) / 8 = pre.length + i / 8 by omega, show (8 * pre.length + i) % 8 = i % 8 by omega]
  have hlt : i / 8 < (pack bits).length := by rw [pack_length]; omega
  have : (pre ++ pack bits ++ post).getD (pre.length + i / 8) 0 = ofBits ((bits.drop (8 * (i / 8))).take 8) := by
    rw [List.append_assoc, getD_right _ _ _ _ (by omega), Nat.add_sub_cancel_left, getD_left _ _ _ _ hlt]
    rw [pack_length] at hlt
    simp [pack, List.getD_eq_getElem?_getD, List.getElem?_range hlt]
  rw [this, ofBits_testBit]
  simp only [List.getD_eq_getElem?_getD]
  rw [List.getElem?_take_of_lt (by omega), List.getElem?_drop, show 8 * (i / 8) + i % 8 = i by omega]

/-! ### lines -/

section
variable {t : Tables} {cw : Nat → List Bool} {v : Nat → Nat} (D : Decodes t cw v)
include D

theorem none_ok (data : List Nat) (syms : List Nat) (pos : Nat) (hb : ∀ x ∈ syms, x < 256) (hr : Reads data pos (syms.flatMap cw)) :
    decompNone t data syms.length (posAt data pos) = .ok (syms.map v, posAt data (pos + (syms.flatMap cw).length)) := by
  induction syms generalizing pos with
  | nil => simp [decompNone]
  | cons x xs ih =>
    rw [List.flatMap_cons, reads_append] at hr
    rw [List.length_cons, decompNone, D.code x (hb x (by simp)) data pos hr.1]
    simp only [Except.bind]
    rw [ih _ (fun y hy => hb y (by simp [hy])) hr.2]
    simp [Except.map, Nat.add_assoc]

theorem x_ok (data : List Nat) (syms : List Nat) (prev pos : Nat) (hb : ∀ x ∈ syms, x < 256) (hr : Reads data pos (syms.flatMap cw)) :
    decompX t data syms.length prev (posAt data pos) = .ok (alongLine v prev syms, posAt data (pos + (syms.flatMap cw).length)) := by
  induction syms generalizing pos prev with
  | nil => simp [decompX, alongLine]
  | cons x xs ih =>
    rw [List.flatMap_cons, reads_append] at hr
    rw [List.length_cons, decompX, D.code x (hb x (by simp)) data pos hr.1]
    simp only [Except.bind]
    rw [ih _ _ (fun y hy => hb y (by simp [hy])) hr.2]
    simp [Except.map, Nat.add_assoc, alongLine]

theorem y_ok (data : List Nat) (syms above : List Nat) (pos : Nat) (hl : above.length = syms.length) (hb : ∀ x ∈ syms, x < 256)
    (hr : Reads data pos (syms.flatMap cw)) :
    decompY t data above (posAt data pos) = .ok (fromAbove v above syms, posAt data (pos + (syms.flatMap cw).length)) := by
  induction syms generalizing pos above with
  | nil =>
    cases above with
    | nil => simp [decompY, fromAbove]
    | cons a as => simp at hl
  | cons x xs ih =>
    cases above with
    | nil => simp at hl
    | cons a as =>
      rw [List.flatMap_cons, reads_append] at hr
      rw [decompY, D.code x (hb x (by simp)) data pos hr.1]
      simp only [Except.bind]
      rw [ih as _ (by simpa using hl) (fun y hy => hb y (by simp [hy])) hr.2]
      simp [Except.map, Nat.add_assoc, fromAbove, Nat.add_comm]

omit D in
theorem alongLine_length (v : Nat → Nat) (p : Nat) (syms : List Nat) : (alongLine v p syms).length = syms.length := by
  induction syms generalizing p with
  | nil => rfl
  | cons x xs ih => simp [alongLine, ih]

/-- the line after `above` -/
def rowOf (pr : Pred) (v : Nat → Nat) (above syms : List Nat) : List Nat :=
  match pr with
  | .x => alongLine v 0 syms
  | .y => fromAbove v above syms

omit D in
theorem rowOf_length (pr : Pred) (above syms : List Nat) (h : above.length = syms.length) : (rowOf pr v above syms).length = syms.length := by
  cases pr
  · exact alongLine_length _ _ _
  · simp [rowOf, fromAbove, h]

theorem line_ok (pr : Pred) (data : List Nat) (syms above : List Nat) (pos w : Nat) (hw : syms.length = w) (hl : above.length = w)
    (hb : ∀ x ∈ syms, x < 256) (hr : Reads data pos (syms.flatMap cw)) :
    decompLine t data pr.number w above (posAt data pos) = .ok (rowOf pr v above syms, posAt data (pos + (syms.flatMap cw).length)) := by
  subst hw
  cases pr with
  | x =>
    simp only [decompLine, Pred.number, Nat.one_ne_zero, if_false, if_true]
    exact x_ok D data syms 0 pos hb hr
  | y =>
    simp only [decompLine, Pred.number, OfNat.ofNat_ne_zero, OfNat.ofNat_ne_one, if_false, if_true]
    exact y_ok D data syms above pos hl hb hr

theorem lines_ok (pr : Pred) (data : List Nat) (w len last k : Nat) (syms : List (List Nat)) : ∀ (above : List Nat) (y pos : Nat),
    (∀ r ∈ syms, r.length = w) → (∀ r ∈ syms, ∀ x ∈ r, x < 256) → above.length = w → 1 ≤ y % 128 → y % 128 + syms.length ≤ 128 →
    Reads data pos (syms.flatten.flatMap cw) →
    ∃ above', decodeLines t data pr.number w len (syms.length + k) y ⟨above, posAt data pos, last⟩ =
      (decodeLines t data pr.number w len k (y + syms.length) ⟨above', posAt data (pos + (syms.flatten.flatMap cw).length), last⟩).map
        (restOf pr v above syms ++ ·) := by
  induction syms with
  | nil =>
    intro above y pos _ _ _ _ _ _
    refine ⟨above, ?_⟩
    simp only [List.length_nil, Nat.zero_add, restOf, List.nil_append, List.flatten_nil, List.flatMap_nil, Nat.add_zero]
    cases decodeLines t data pr.number w len k y ⟨above, posAt data pos, last⟩ <;> rfl
  | cons r rs ih =>
    intro above y pos h1 h2 h3 h4 h5 hr
    rw [List.flatten_cons, List.flatMap_append, reads_append] at hr
    rw [List.length_cons] at h5
    rw [List.length_cons, show rs.length + 1 + k = (rs.length + k) + 1 by omega, decodeLines, if_neg (by omega),
      line_ok D pr data r above pos w (h1 r (by simp)) h3 (h2 r (by simp)) hr.1]
    simp only [Except.bind]
    by_cases hrs : rs = []
    · subst hrs
      refine ⟨rowOf pr v above r, ?_⟩
      simp only [List.length_nil, Nat.zero_add, List.flatten_cons, List.flatten_nil, List.append_nil]
      cases pr <;> rfl
    · have hpos : 0 < rs.length := List.length_pos_iff.2 hrs
      obtain ⟨above', e⟩ := ih (rowOf pr v above r) (y + 1) (pos + (r.flatMap cw).length) (fun x hx => h1 x (by simp [hx]))
        (fun x hx => h2 x (by simp [hx])) (by rw [rowOf_length _ _ _ (by rw [h3, h1 r (by simp)]), h1 r (by simp)])
        (by omega) (by omega) hr.2
      refine ⟨above', ?_⟩
      rw [e]
      simp only [List.flatten_cons, List.flatMap_append, List.length_append, Nat.add_assoc, Nat.add_comm 1 rs.length]
      generalize decodeLines t data pr.number w len k _ _ = q
      cases q
      · rfl
      · cases pr <;> rfl

omit D in
theorem flat_ne_nil (w : Nat) (hw : 0 < w) (syms : List (List Nat)) (h : syms ≠ []) (h1 : ∀ r ∈ syms, r.length = w)
    (h2 : ∀ r ∈ syms, ∀ x ∈ r, x < 256) (hp : ∀ s, s < 256 → 0 < (cw s).length) : 0 < (syms.flatten.flatMap cw).length := by
  cases syms with
  | nil => exact absurd rfl h
  | cons r rs =>
    cases r with
    | nil => have := h1 [] (by simp); simp at this; omega
    | cons x xs =>
      have := hp x (h2 _ List.mem_cons_self x List.mem_cons_self)
      simp only [List.flatten_cons, List.cons_append, List.flatMap_cons, List.length_append]
      omega

theorem section_ok (pr : Pred) (data : List Nat) (w len k y : Nat) (hw : 0 < w) (s : Section) (pre post : List Nat)
    (hd : data = pre ++ s.bytes cw ++ post) (heven : pre.length % 2 = 0) (st : State) (hal : (align st.bits).output = pre.length)
    (hy : y % 128 = 0) (h1 : s.first.length = w) (h2 : ∀ r ∈ s.rest, r.length = w) (h3 : ∀ r ∈ s.rest, ∀ x ∈ r, x < 256)
    (h4 : s.rest.length ≤ 127) :
    ∃ st', decodeLines t data pr.number w len (1 + s.rest.length + k) y st =
        (decodeLines t data pr.number w len k (y + (1 + s.rest.length)) st').map (s.rows pr v ++ ·) ∧
      (align st'.bits).output = (pre ++ s.bytes cw).length := by
  have hbytes : s.bytes cw = [0xca, 0xf0] ++ (s.first ++ pack (s.rest.flatten.flatMap cw)) ++
      List.replicate ((s.first ++ pack (s.rest.flatten.flatMap cw)).length % 2) 0 := rfl
  have hlen : (s.bytes cw).length = 2 + (w + (pack (s.rest.flatten.flatMap cw)).length) + (w + (pack (s.rest.flatten.flatMap cw)).length) % 2 := by
    rw [hbytes]
    simp only [List.length_append, List.length_cons, List.length_nil, List.length_replicate, h1]
  -- the marker
  have hword : word data pre.length = 0xf0ca := by
    have e : data = pre ++ (0xca :: 0xf0 :: (s.first ++ pack (s.rest.flatten.flatMap cw) ++
        List.replicate ((s.first ++ pack (s.rest.flatten.flatMap cw)).length % 2) 0 ++ post)) := by
      rw [hd, hbytes]; simp
    rw [e]
    unfold word
    rw [getD_right _ _ _ _ (by omega), getD_right _ _ _ _ (by omega), Nat.sub_self, Nat.add_sub_cancel_left]
    simp
  have hlong : ¬ data.length ≤ pre.length + 1 := by
    rw [hd]
    simp only [List.length_append, hlen]
    omega
  have hres : resync data len st = some { st with bits := align st.bits, last := pre.length } := by
    simp only [resync, hal, if_neg hlong, hword, if_true]
  -- the first line
  have hrow : (data.drop (pre.length + 2)).take w = s.first := by
    have e : data = (pre ++ [0xca, 0xf0]) ++ (s.first ++ (pack (s.rest.flatten.flatMap cw) ++
        List.replicate ((s.first ++ pack (s.rest.flatten.flatMap cw)).length % 2) 0 ++ post)) := by
      rw [hd, hbytes]; simp
    rw [e, List.drop_left' (by simp), List.take_left' h1]
  have hsync : decompSync data w (align st.bits) = (s.first, ⟨if pre.length + 2 + w < data.length then data.getD (pre.length + 2 + w) 0 else (align st.bits).queue, 0, pre.length + 2 + w⟩) := by
    simp only [decompSync, hal, hrow, h1, Nat.sub_self, List.replicate_zero, List.append_nil]
  have hreads : Reads data (8 * (pre.length + 2 + w)) (s.rest.flatten.flatMap cw) := by
    have e : data = (pre ++ [0xca, 0xf0] ++ s.first) ++ pack (s.rest.flatten.flatMap cw) ++
        (List.replicate ((s.first ++ pack (s.rest.flatten.flatMap cw)).length % 2) 0 ++ post) := by
      rw [hd, hbytes]; simp
    have := reads_pack (pre ++ [0xca, 0xf0] ++ s.first)
      (List.replicate ((s.first ++ pack (s.rest.flatten.flatMap cw)).length % 2) 0 ++ post) (s.rest.flatten.flatMap cw)
    rw [← e] at this
    simpa [h1, Nat.add_assoc, Nat.add_comm w 2] using this
  rw [show 1 + s.rest.length + k = (s.rest.length + k) + 1 by omega, decodeLines, if_pos ⟨hy, by cases pr <;> decide⟩, hres]
  simp only [hsync]
  by_cases hrest : s.rest = []
  · refine ⟨⟨s.first, ⟨if pre.length + 2 + w < data.length then data.getD (pre.length + 2 + w) 0 else (align st.bits).queue, 0, pre.length + 2 + w⟩, pre.length⟩, ?_, ?_⟩
    · simp only [hrest, List.length_nil, Nat.zero_add, Nat.add_zero, Section.rows, restOf]
      generalize decodeLines t data pr.number w len k _ _ = q
      cases q <;> rfl
    · simp only [List.length_append, hlen, hrest, align]
      simp [pack]
      split <;> omega
  · have hbits := flat_ne_nil w hw s.rest hrest h2 h3 D.pos
    have hplen := pack_length (s.rest.flatten.flatMap cw)
    have hlt : pre.length + 2 + w < data.length := by
      rw [hd]
      simp only [List.length_append, hlen]
      omega
    have hst : (⟨if pre.length + 2 + w < data.length then data.getD (pre.length + 2 + w) 0 else (align st.bits).queue, 0, pre.length + 2 + w⟩ : BitPos)
        = posAt data (8 * (pre.length + 2 + w)) := by
      rw [if_pos hlt]
      simp [posAt]
    rw [hst]
    obtain ⟨above', e⟩ := lines_ok D pr data w len pre.length k s.rest s.first (y + 1) (8 * (pre.length + 2 + w)) h2 h3 h1 (by omega) (by omega) hreads
    refine ⟨⟨above', posAt data (8 * (pre.length + 2 + w) + (s.rest.flatten.flatMap cw).length), pre.length⟩, ?_, ?_⟩
    · rw [e, show y + 1 + s.rest.length = y + (1 + s.rest.length) by omega]
      generalize decodeLines t data pr.number w len k _ _ = q
      cases q <;> rfl
    · simp only [align_posAt, List.length_append, hlen, hplen]
      generalize (s.rest.flatten.flatMap cw).length = nb at *
      omega

end

/-! ### images -/

theorem restOf_length (pr : Pred) (v : Nat → Nat) (a : List Nat) (s : List (List Nat)) : (restOf pr v a s).length = s.length := by
  induction s generalizing a with
  | nil => rfl
  | cons x xs ih => simp [restOf, ih]

theorem rows_length (pr : Pred) (v : Nat → Nat) (s : Section) : (s.rows pr v).length = 1 + s.rest.length := by
  simp [Section.rows, restOf_length, Nat.add_comm]

theorem sections_ok {t : Tables} {cw : Nat → List Bool} {v : Nat → Nat} (D : Decodes t cw v) (pr : Pred) (data : List Nat) (w len k : Nat)
    (hw : 0 < w) (secs : List Section) : ∀ (pre post : List Nat) (st : State) (y : Nat), WellFormed w secs →
    data = pre ++ secs.flatMap (Section.bytes cw) ++ post → pre.length % 2 = 0 → (align st.bits).output = pre.length → y % 128 = 0 →
    ∃ st', decodeLines t data pr.number w len ((imageOf pr v secs).length + k) y st =
      (decodeLines t data pr.number w len k (y + (imageOf pr v secs).length) st').map (imageOf pr v secs ++ ·) := by
  induction secs with
  | nil =>
    intro pre post st y _ _ _ _ _
    refine ⟨st, ?_⟩
    simp only [imageOf, List.flatMap_nil, List.length_nil, Nat.zero_add, Nat.add_zero, List.nil_append]
    cases decodeLines t data pr.number w len k y st <;> rfl
  | cons s ss ih =>
    intro pre post st y hwf hd heven hal hy
    obtain ⟨h1, h2, h3, h4, h5⟩ := hwf
    have hd' : data = pre ++ s.bytes cw ++ (ss.flatMap (Section.bytes cw) ++ post) := by
      rw [hd, List.flatMap_cons]; simp
    have himg : (imageOf pr v (s :: ss)).length = 1 + s.rest.length + (imageOf pr v ss).length := by
      simp only [imageOf, List.flatMap_cons, List.length_append, rows_length]
    obtain ⟨st1, e1, e2⟩ := section_ok D pr data w len ((imageOf pr v ss).length + k) y hw s pre (ss.flatMap (Section.bytes cw) ++ post)
      hd' heven st hal hy h1 h2 h3 (by omega)
    by_cases hss : ss = []
    · subst hss
      refine ⟨st1, ?_⟩
      rw [himg]
      simp only [imageOf, List.flatMap_nil, List.length_nil, Nat.add_zero, Nat.zero_add, List.flatMap_cons, List.append_nil] at e1 ⊢
      exact e1
    · have h127 : s.rest.length = 127 := by
        rcases h4 with h | ⟨_, h⟩
        · exact h
        · exact absurd h hss
      have heven' : (pre ++ s.bytes cw).length % 2 = 0 := by
        simp only [List.length_append, Section.bytes, List.length_cons, List.length_nil, List.length_replicate]
        omega
      obtain ⟨st2, e3⟩ := ih (pre ++ s.bytes cw) post st1 (y + (1 + s.rest.length)) h5 (by rw [hd']; simp) heven' e2 (by omega)
      refine ⟨st2, ?_⟩
      rw [himg, Nat.add_assoc, e1, e3, show y + (1 + s.rest.length + (imageOf pr v ss).length) = y + (1 + s.rest.length) + (imageOf pr v ss).length by omega]
      generalize decodeLines t data pr.number w len k _ _ = q
      cases q with
      | error e => rfl
      | ok l => simp [Except.map, imageOf]

/-- nothing but lines of the right width, at most as many as asked for -/
theorem decodeLines_total {t : Tables} {cw : Nat → List Bool} {v : Nat → Nat} (D : Decodes t cw v) (data : List Nat) (hdata : ∀ x ∈ data, x < 256)
    (comp w len : Nat) (hc : comp < 3) : ∀ (k y : Nat) (st : State), st.prev.length = w →
    ∃ rows, decodeLines t data comp w len k y st = .ok rows ∧ rows.length ≤ k ∧ (∀ r ∈ rows, r.length = w) ∧ (∀ r ∈ rows, ∀ x ∈ r, x < 256) := by
  have hnone : ∀ n b, ∃ row b', decompNone t data n b = .ok (row, b') ∧ row.length = n ∧ ∀ x ∈ row, x < 256 := by
    intro n
    induction n with
    | zero => intro b; exact ⟨[], b, rfl, rfl, by simp⟩
    | succ n ih =>
      intro b
      obtain ⟨x, b', e, hx⟩ := D.total data b
      obtain ⟨row, b'', e2, hl, hbd⟩ := ih b'
      refine ⟨x :: row, b'', ?_, by simp [hl], ?_⟩
      · rw [decompNone, e]
        simp only [Except.bind, e2, Except.map]
      · intro a ha
        rcases List.mem_cons.1 ha with rfl | ha
        · exact hx
        · exact hbd a ha
  have hx : ∀ n p b, ∃ row b', decompX t data n p b = .ok (row, b') ∧ row.length = n ∧ ∀ x ∈ row, x < 256 := by
    intro n
    induction n with
    | zero => intro p b; exact ⟨[], b, rfl, rfl, by simp⟩
    | succ n ih =>
      intro p b
      obtain ⟨x, b', e, hx⟩ := D.total data b
      obtain ⟨row, b'', e2, hl, hbd⟩ := ih ((p + x) % 256) b'
      refine ⟨(p + x) % 256 :: row, b'', ?_, by simp [hl], ?_⟩
      · rw [decompX, e]
        simp only [Except.bind, e2, Except.map]
      · intro a ha
        rcases List.mem_cons.1 ha with rfl | ha
        · omega
        · exact hbd a ha
  have hy : ∀ above b, ∃ row b', decompY t data above b = .ok (row, b') ∧ row.length = above.length ∧ ∀ x ∈ row, x < 256 := by
    intro above
    induction above with
    | nil => intro b; exact ⟨[], b, rfl, rfl, by simp⟩
    | cons a as ih =>
      intro b
      obtain ⟨x, b', e, hx⟩ := D.total data b
      obtain ⟨row, b'', e2, hl, hbd⟩ := ih b'
      refine ⟨(x + a) % 256 :: row, b'', ?_, by simp [hl], ?_⟩
      · rw [decompY, e]
        simp only [Except.bind, e2, Except.map]
      · intro c hc
        rcases List.mem_cons.1 hc with rfl | hc
        · omega
        · exact hbd c hc
  have hline : ∀ prev b, prev.length = w → ∃ row b', decompLine t data comp w prev b = .ok (row, b') ∧ row.length = w ∧ ∀ x ∈ row, x < 256 := by
    intro prev b hp
    unfold decompLine
    rcases (by omega : comp = 0 ∨ comp = 1 ∨ comp = 2) with rfl | rfl | rfl
    · simpa using hnone w b
    · simpa using hx w 0 b
    · simpa [hp] using hy prev b
  intro k
  induction k with
  | zero => intro y st _; exact ⟨[], rfl, by simp, by simp, by simp⟩
  | succ k ih =>
    intro y st hst
    rw [decodeLines]
    by_cases hsync : y % 128 = 0 ∧ comp ≠ 0
    · rw [if_pos hsync]
      cases hr : resync data len st with
      | none => exact ⟨[], rfl, by simp, by simp, by simp⟩
      | some s' =>
        have hl : (decompSync data w s'.bits).1.length = w := by
          simp only [decompSync, List.length_append, List.length_replicate, List.length_take, List.length_drop]
          omega
        have hbd : ∀ x ∈ (decompSync data w s'.bits).1, x < 256 := by
          intro x hx
          simp only [decompSync, List.mem_append, List.mem_replicate] at hx
          rcases hx with hx | ⟨_, rfl⟩
          · exact hdata x (List.mem_of_mem_drop (List.mem_of_mem_take hx))
          · omega
        obtain ⟨rows, e, h1, h2, h3⟩ := ih (y + 1) ⟨(decompSync data w s'.bits).1, (decompSync data w s'.bits).2, s'.last⟩ hl
        refine ⟨(decompSync data w s'.bits).1 :: rows, ?_, by simp; omega, ?_, ?_⟩
        · simp only [e, Except.map]
        · intro r hr
          rcases List.mem_cons.1 hr with rfl | hr
          · exact hl
          · exact h2 r hr
        · intro r hr
          rcases List.mem_cons.1 hr with rfl | hr
          · exact hbd
          · exact h3 r hr
    · rw [if_neg hsync]
      obtain ⟨row, b', e, hl, hbd⟩ := hline st.prev st.bits hst
      obtain ⟨rows, e2, h1, h2, h3⟩ := ih (y + 1) ⟨row, b', st.last⟩ hl
      refine ⟨row :: rows, ?_, by simp; omega, ?_, ?_⟩
      · rw [e]
        simp only [Except.bind, e2, Except.map]
      · intro r hr
        rcases List.mem_cons.1 hr with rfl | hr
        · exact hl
        · exact h2 r hr
      · intro r hr
        rcases List.mem_cons.1 hr with rfl | hr
        · exact hbd
        · exact h3 r hr

theorem flatten_ne {rows : List (List Nat)} {w : Nat} (hw : 0 < w) (h : ∀ r ∈ rows, r.length = w) (hne : rows ≠ []) : rows.flatten ≠ [] := by
  cases rows with
  | nil => exact absurd rfl hne
  | cons r rs =>
    cases r with
    | nil => have := h [] (by simp); simp at this; omega
    | cons x xs => simp

theorem rest_width {pr : Pred} {v : Nat → Nat} (w : Nat) (syms : List (List Nat)) : ∀ above : List Nat, above.length = w →
    (∀ r ∈ syms, r.length = w) → ∀ r ∈ restOf pr v above syms, r.length = w := by
  induction syms with
  | nil => intro a _ _ r hr; simp [restOf] at hr
  | cons x xs ih =>
    intro a ha h r hr
    have hl : (rowOf pr v a x).length = w := by rw [rowOf_length pr a x (by rw [ha, h x (by simp)]), h x (by simp)]
    have hr' : r = rowOf pr v a x ∨ r ∈ restOf pr v (rowOf pr v a x) xs := by
      cases pr <;> simpa [restOf, rowOf] using hr
    rcases hr' with rfl | hr'
    · exact hl
    · exact ih _ hl (fun q hq => h q (by simp [hq])) r hr'

theorem image_width {pr : Pred} {v : Nat → Nat} (w : Nat) (secs : List Section) (h : WellFormed w secs) :
    ∀ r ∈ imageOf pr v secs, r.length = w := by
  induction secs with
  | nil => intro r hr; simp [imageOf] at hr
  | cons s ss ih =>
    obtain ⟨h1, h2, _, _, h5⟩ := h
    intro r hr
    simp only [imageOf, List.flatMap_cons, List.mem_append, Section.rows, List.mem_cons] at hr
    rcases hr with (rfl | hr) | hr
    · exact h1
    · exact rest_width w s.rest s.first h1 h2 r hr
    · exact ih h5 r hr

theorem start_ok (data : List Nat) : (align ⟨data.getD 0 0, 0, 0⟩).output = ([] : List Nat).length := by simp [align]

/-- **C24 (coded sections).** Predictively coded data, in any of the eight codes, with the differences along the line or to
the line above, in sections of 128 lines with a marker each, are decoded to the lines they were made from: each coded byte
adds the value its code stands for (itself, but for code 7, which is coarser). Whatever comes after the data is ignored. -/
theorem C24_sections (h : Header) (b l r : List Nat) (hid : codeTables[h.compression.getD 1 0 % 16]? = some (b, l, r)) (pr : Pred)
    (hp : h.pcomp = pr.number) (hw : 0 < h.editLength) (secs : List Section) (hwf : WellFormed (h.editLength * 16) secs) (hne : secs ≠ [])
    (hh : (imageOf pr (fun s => r.getD s 0) secs).length = h.downTotal * 16) (post : List Nat) :
    makePredImage h (secs.flatMap (Section.bytes (codeword b l)) ++ post) = .ok (imageOf pr (fun s => r.getD s 0) secs) := by
  obtain ⟨t, ht, D⟩ := tables_decode _ b l r hid
  unfold makePredImage
  rw [ht]
  simp only [Except.bind, predDecode, hp]
  obtain ⟨st', e⟩ := sections_ok D pr (secs.flatMap (Section.bytes (codeword b l)) ++ post) (h.editLength * 16)
    (h.editLength * 16 * (h.downTotal * 16)) 0 (by omega) secs [] post
    ⟨List.replicate (h.editLength * 16) 0, ⟨(secs.flatMap (Section.bytes (codeword b l)) ++ post).getD 0 0, 0, 0⟩, 0⟩ 0 hwf (by simp) rfl
    (start_ok _) rfl
  rw [Nat.add_zero, hh] at e
  rw [e]
  simp only [decodeLines, Except.map, List.append_nil]
  rw [if_neg]
  apply flatten_ne (w := h.editLength * 16) (by omega) (image_width _ _ hwf)
  cases secs with
  | nil => exact absurd rfl hne
  | cons s ss => simp [imageOf, Section.rows]

/-! ### without loss -/

theorem along_diff (v : Nat → Nat) (hv : ∀ s, s < 256 → v s = s) (row : List Nat) : ∀ p, p < 256 → (∀ x ∈ row, x < 256) →
    alongLine v p (List.zipWith (fun a p => (a + 256 - p) % 256) row (p :: row)) = row := by
  induction row with
  | nil => intros; rfl
  | cons x xs ih =>
    intro p hp hx
    have hx0 := hx x (by simp)
    rw [List.zipWith_cons_cons, alongLine, hv _ (by omega), show (p + (x + 256 - p) % 256) % 256 = x by omega,
      ih x hx0 (fun y hy => hx y (by simp [hy]))]

theorem above_diff (v : Nat → Nat) (hv : ∀ s, s < 256 → v s = s) (row above : List Nat) (hl : above.length = row.length)
    (h1 : ∀ x ∈ row, x < 256) (h2 : ∀ x ∈ above, x < 256) : fromAbove v above (diffAbove above row) = row := by
  induction row generalizing above with
  | nil => cases above with
    | nil => rfl
    | cons a as => simp at hl
  | cons x xs ih =>
    cases above with
    | nil => simp at hl
    | cons a as =>
      have hx := h1 x (by simp)
      have ha := h2 a (by simp)
      simp only [fromAbove, diffAbove, List.zipWith_cons_cons] at ih ⊢
      rw [hv _ (by omega), show (a + (x + 256 - a) % 256) % 256 = x by omega]
      congr 1
      exact ih as (by simpa using hl) (fun y hy => h1 y (by simp [hy])) (fun y hy => h2 y (by simp [hy]))

theorem rest_syms (pr : Pred) (v : Nat → Nat) (hv : ∀ s, s < 256 → v s = s) (w : Nat) (rows : List (List Nat)) : ∀ above : List Nat,
    above.length = w → (∀ x ∈ above, x < 256) → (∀ r ∈ rows, r.length = w) → (∀ r ∈ rows, ∀ x ∈ r, x < 256) →
    restOf pr v above (symsOf pr above rows) = rows := by
  induction rows with
  | nil => intros; rfl
  | cons r rs ih =>
    intro above h1 h2 h3 h4
    have hr : (match pr with | .x => alongLine v 0 (diffAlong r) | .y => fromAbove v above (diffAbove above r)) = r := by
      cases pr with
      | x => exact along_diff v hv r 0 (by omega) (h4 r (by simp))
      | y => exact above_diff v hv r above (by rw [h1, h3 r (by simp)]) (h4 r (by simp)) h2
    have := ih r (h3 r (by simp)) (h4 r (by simp)) (fun q hq => h3 q (by simp [hq])) (fun q hq => h4 q (by simp [hq]))
    cases pr <;> simp only [symsOf, restOf] at hr ⊢ <;> rw [hr, this]

theorem syms_length (pr : Pred) (rows : List (List Nat)) (above : List Nat) : (symsOf pr above rows).length = rows.length := by
  induction rows generalizing above with
  | nil => rfl
  | cons r rs ih => simp [symsOf, ih]

theorem syms_ok (pr : Pred) (w : Nat) (rows : List (List Nat)) : ∀ above : List Nat, above.length = w → (∀ r ∈ rows, r.length = w) →
    ∀ s ∈ symsOf pr above rows, s.length = w ∧ ∀ x ∈ s, x < 256 := by
  have hz : ∀ a c : List Nat, ∀ x ∈ List.zipWith (fun a p => (a + 256 - p) % 256) a c, x < 256 := by
    intro a
    induction a with
    | nil => intro c x hx; simp at hx
    | cons y ys ih =>
      intro c x hx
      cases c with
      | nil => simp at hx
      | cons z zs =>
        rw [List.zipWith_cons_cons, List.mem_cons] at hx
        rcases hx with rfl | hx
        · omega
        · exact ih zs x hx
  induction rows with
  | nil => intro _ _ _ s hs; simp [symsOf] at hs
  | cons r rs ih =>
    intro above h1 h2 s hs
    have hr := h2 r (by simp)
    cases pr with
    | x =>
      rw [symsOf, List.mem_cons] at hs
      rcases hs with rfl | hs
      · exact ⟨by simp [diffAlong, hr], hz _ _⟩
      · exact ih r hr (fun q hq => h2 q (by simp [hq])) s hs
    | y =>
      rw [symsOf, List.mem_cons] at hs
      rcases hs with rfl | hs
      · exact ⟨by simp [diffAbove, hr, h1], hz _ _⟩
      · exact ih r hr (fun q hq => h2 q (by simp [hq])) s hs

theorem sectionsOf_nil (pr : Pred) : sectionsOf pr [] = [] := rfl

theorem sectionsOf_cons (pr : Pred) (r : List Nat) (rs : List (List Nat)) :
    sectionsOf pr (r :: rs) = ⟨r, symsOf pr r (rs.take 127)⟩ :: sectionsOf pr (rs.drop 127) := by
  unfold sectionsOf
  have hn : ((r :: rs).length + 127) / 128 = ((rs.drop 127).length + 127) / 128 + 1 := by
    simp only [List.length_cons, List.length_drop]
    omega
  rw [hn, List.range_succ_eq_map, List.map_cons, List.map_map]
  congr 1
  apply List.map_congr_left
  intro k _
  have : (List.drop (128 * (k + 1)) (r :: rs)) = List.drop (128 * k) (List.drop 127 rs) := by
    rw [List.drop_drop, show 128 * (k + 1) = (127 + 128 * k) + 1 by omega, List.drop_succ_cons]
  simp only [Function.comp_apply, Nat.succ_eq_add_one, this]

theorem sectionsOf_ok (pr : Pred) (v : Nat → Nat) (hv : ∀ s, s < 256 → v s = s) (w n : Nat) : ∀ rows : List (List Nat), rows.length ≤ n →
    (∀ r ∈ rows, r.length = w) → (∀ r ∈ rows, ∀ x ∈ r, x < 256) →
    WellFormed w (sectionsOf pr rows) ∧ imageOf pr v (sectionsOf pr rows) = rows := by
  induction n with
  | zero =>
    intro rows hn _ _
    have : rows = [] := List.length_eq_zero_iff.1 (by omega)
    subst this
    rw [sectionsOf_nil]
    exact ⟨trivial, rfl⟩
  | succ n ih =>
    intro rows hn h1 h2
    cases rows with
    | nil => rw [sectionsOf_nil]; exact ⟨trivial, rfl⟩
    | cons r rs =>
      rw [sectionsOf_cons]
      have hr1 := h1 r (by simp)
      have hr2 := h2 r (by simp)
      have ht1 : ∀ q ∈ rs.take 127, q.length = w := fun q hq => h1 q (by simp [List.mem_of_mem_take hq])
      have ht2 : ∀ q ∈ rs.take 127, ∀ x ∈ q, x < 256 := fun q hq => h2 q (by simp [List.mem_of_mem_take hq])
      obtain ⟨e1, e2⟩ := ih (rs.drop 127) (by simp at hn ⊢; omega) (fun q hq => h1 q (by simp [List.mem_of_mem_drop hq]))
        (fun q hq => h2 q (by simp [List.mem_of_mem_drop hq]))
      refine ⟨⟨hr1, fun s hs => (syms_ok pr w _ r hr1 ht1 s hs).1, fun s hs => (syms_ok pr w _ r hr1 ht1 s hs).2, ?_, e1⟩, ?_⟩
      · simp only [syms_length, List.length_take]
        by_cases hlen : 127 ≤ rs.length
        · left; omega
        · right
          refine ⟨by omega, ?_⟩
          rw [List.drop_eq_nil_of_le (by omega), sectionsOf_nil]
      · have : imageOf pr v (⟨r, symsOf pr r (rs.take 127)⟩ :: sectionsOf pr (rs.drop 127)) =
            (r :: restOf pr v r (symsOf pr r (rs.take 127))) ++ imageOf pr v (sectionsOf pr (rs.drop 127)) := rfl
        rw [this, e2, rest_syms pr v hv w _ r hr1 hr2 ht1 ht2, List.cons_append, List.take_append_drop]

theorem ident_requant : ∀ s, s < 256 → codeIdentRequant.getD s 0 = s := by decide +kernel

theorem lossless_codes : ∀ id, id < 7 → (codeTables[id]?).map (·.2.2) = some codeIdentRequant := by decide +kernel

/-- **C24.** Every image, coded without loss (codes 0 to 6) with either predictor, is decoded to itself. -/
theorem C24_lossless (h : Header) (hid : h.compression.getD 1 0 % 16 < 7) (b l r : List Nat)
    (hc : codeTables[h.compression.getD 1 0 % 16]? = some (b, l, r)) (pr : Pred) (hp : h.pcomp = pr.number)
    (rows : List (List Nat)) (hne : rows ≠ []) (hw : 0 < h.editLength) (h1 : ∀ q ∈ rows, q.length = h.editLength * 16)
    (h2 : ∀ q ∈ rows, ∀ x ∈ q, x < 256) (h3 : rows.length = h.downTotal * 16) (post : List Nat) :
    makePredImage h ((sectionsOf pr rows).flatMap (Section.bytes (codeword b l)) ++ post) = .ok rows := by
  have hr : r = codeIdentRequant := by
    have := lossless_codes _ hid
    rw [hc] at this
    simpa using this
  subst hr
  obtain ⟨e1, e2⟩ := sectionsOf_ok pr (fun s => codeIdentRequant.getD s 0) ident_requant (h.editLength * 16) rows.length rows le_rfl h1 h2
  have := C24_sections h b l _ hc pr hp hw (sectionsOf pr rows) e1 (by
    intro he
    rw [he] at e2
    exact hne e2.symm) (by rw [e2, h3]) post
  rw [this, e2]

/-! ### raw -/

theorem raw_ok {t : Tables} {cw : Nat → List Bool} {v : Nat → Nat} (D : Decodes t cw v) (data : List Nat) (w len last : Nat)
    (syms : List (List Nat)) : ∀ (above : List Nat) (y pos : Nat), (∀ r ∈ syms, r.length = w) → (∀ r ∈ syms, ∀ x ∈ r, x < 256) →
    Reads data pos (syms.flatten.flatMap cw) →
    decodeLines t data 0 w len syms.length y ⟨above, posAt data pos, last⟩ = .ok (syms.map (·.map v)) := by
  induction syms with
  | nil => intros; rfl
  | cons r rs ih =>
    intro above y pos h1 h2 hr
    rw [List.flatten_cons, List.flatMap_append, reads_append] at hr
    rw [List.length_cons, decodeLines, if_neg (by simp)]
    have := none_ok D data r pos (h2 r (by simp)) hr.1
    rw [h1 r (by simp)] at this
    simp only [decompLine, if_true, this, Except.bind]
    rw [ih _ _ _ (fun q hq => h1 q (by simp [hq])) (fun q hq => h2 q (by simp [hq])) hr.2]
    rfl

/-- **C24 (raw).** Data coded without prediction are one sequence of codewords without markers; they are decoded to what
the codewords stand for. -/
theorem C24_raw (h : Header) (b l r : List Nat) (hc : codeTables[h.compression.getD 1 0 % 16]? = some (b, l, r)) (hp : h.pcomp = 0)
    (syms : List (List Nat)) (hne : syms ≠ []) (hw : 0 < h.editLength) (h1 : ∀ q ∈ syms, q.length = h.editLength * 16)
    (h2 : ∀ q ∈ syms, ∀ x ∈ q, x < 256) (h3 : syms.length = h.downTotal * 16) (post : List Nat) :
    makePredImage h (pack (syms.flatten.flatMap (codeword b l)) ++ post) = .ok (syms.map (·.map fun s => r.getD s 0)) := by
  obtain ⟨t, ht, D⟩ := tables_decode _ b l r hc
  unfold makePredImage
  rw [ht]
  simp only [Except.bind, predDecode, hp]
  have hreads := reads_pack [] post (syms.flatten.flatMap (codeword b l))
  rw [List.nil_append, List.length_nil, Nat.mul_zero] at hreads
  have := raw_ok D _ (h.editLength * 16) (h.editLength * 16 * (h.downTotal * 16)) 0 syms (List.replicate (h.editLength * 16) 0) 0 0 h1 h2 hreads
  rw [← h3]
  have hst : (⟨(pack (syms.flatten.flatMap (codeword b l)) ++ post).getD 0 0, 0, 0⟩ : BitPos) =
      posAt (pack (syms.flatten.flatMap (codeword b l)) ++ post) 0 := by simp [posAt]
  rw [← h3] at this
  rw [hst, this]
  simp only
  rw [if_neg]
  apply flatten_ne (w := h.editLength * 16) (by omega)
  · intro q hq
    obtain ⟨s, hs, rfl⟩ := List.mem_map.1 hq
    simpa using h1 s hs
  · simpa using hne

/-! ### damaged data -/

/-- **C24 (damage).** If the data begin with whole sections and go on in any way whatever, an image that has those lines
begins with them: damage to a section does not reach the lines of the sections before. -/
theorem C24_damage (h : Header) (b l r : List Nat) (hid : codeTables[h.compression.getD 1 0 % 16]? = some (b, l, r)) (pr : Pred)
    (hp : h.pcomp = pr.number) (hw : 0 < h.editLength) (secs : List Section) (hwf : WellFormed (h.editLength * 16) secs) (hne : secs ≠ [])
    (hh : (imageOf pr (fun s => r.getD s 0) secs).length ≤ h.downTotal * 16) (rest : List Nat)
    (hbytes : ∀ x ∈ secs.flatMap (Section.bytes (codeword b l)) ++ rest, x < 256) :
    ∃ more, makePredImage h (secs.flatMap (Section.bytes (codeword b l)) ++ rest) =
      .ok (imageOf pr (fun s => r.getD s 0) secs ++ more) := by
  obtain ⟨t, ht, D⟩ := tables_decode _ b l r hid
  unfold makePredImage
  rw [ht]
  simp only [Except.bind, predDecode, hp]
  obtain ⟨k, hk⟩ := Nat.exists_eq_add_of_le hh
  obtain ⟨st', e⟩ := sections_ok D pr (secs.flatMap (Section.bytes (codeword b l)) ++ rest) (h.editLength * 16)
    (h.editLength * 16 * (h.downTotal * 16)) k (by omega) secs [] rest
    ⟨List.replicate (h.editLength * 16) 0, ⟨(secs.flatMap (Section.bytes (codeword b l)) ++ rest).getD 0 0, 0, 0⟩, 0⟩ 0 hwf (by simp) rfl
    (start_ok _) rfl
  obtain ⟨rows, e', _⟩ := decodeLines_total D (secs.flatMap (Section.bytes (codeword b l)) ++ rest) hbytes pr.number (h.editLength * 16)
    (h.editLength * 16 * (h.downTotal * 16)) (by cases pr <;> decide) (h.downTotal * 16) 0
    ⟨List.replicate (h.editLength * 16) 0, ⟨(secs.flatMap (Section.bytes (codeword b l)) ++ rest).getD 0 0, 0, 0⟩, 0⟩ (by simp)
  rw [e']
  rw [← hk, e'] at e
  cases hq : decodeLines t (secs.flatMap (Section.bytes (codeword b l)) ++ rest) pr.number (h.editLength * 16)
    (h.editLength * 16 * (h.downTotal * 16)) k (0 + (imageOf pr (fun s => r.getD s 0) secs).length) st' with
  | error err => rw [hq] at e; cases e
  | ok more =>
    rw [hq] at e
    injection e with e
    refine ⟨more, ?_⟩
    simp only
    rw [if_neg, e]
    rw [e, List.flatten_append]
    intro hn
    have := flatten_ne (w := h.editLength * 16) (by omega) (image_width (pr := pr) (v := fun s => r.getD s 0) _ _ hwf) (by
      cases secs with
      | nil => exact absurd rfl hne
      | cons s ss => simp [imageOf, Section.rows])
    exact this (List.append_eq_nil_iff.1 hn).1

/-- **C24 (any data).** With one of the eight codes and without both predictors at once, decoding never fails on any bytes
whatever, but for data that give no lines at all: it gives lines of the right width, of bytes, not more than the image
has. Other codes are an IndexError. -/
theorem C24_total (h : Header) (data : List Nat) (hb : ∀ x ∈ data, x < 256) (hp : h.pcomp < 3) :
    (h.compression.getD 1 0 % 16 < 8 →
      makePredImage h data = .error .ioError ∨ ∃ rows, makePredImage h data = .ok rows ∧ rows.length ≤ h.downTotal * 16 ∧
        (∀ q ∈ rows, q.length = h.editLength * 16) ∧ ∀ q ∈ rows, ∀ x ∈ q, x < 256) ∧
    (8 ≤ h.compression.getD 1 0 % 16 → makePredImage h data = .error .indexError) := by
  constructor
  · intro hid
    have : ∃ c, codeTables[h.compression.getD 1 0 % 16]? = some c := by
      rw [List.getElem?_eq_getElem (by simpa [codeTables] using hid)]
      exact ⟨_, rfl⟩
    obtain ⟨⟨b, l, r⟩, hc⟩ := this
    obtain ⟨t, ht, D⟩ := tables_decode _ b l r hc
    obtain ⟨rows, e, h1, h2, h3⟩ := decodeLines_total D data hb h.pcomp (h.editLength * 16)
      (h.editLength * 16 * (h.downTotal * 16)) hp (h.downTotal * 16) 0
      ⟨List.replicate (h.editLength * 16) 0, ⟨data.getD 0 0, 0, 0⟩, 0⟩ (by simp)
    unfold makePredImage
    rw [ht]
    simp only [Except.bind, predDecode, e]
    by_cases hf : rows.flatten = []
    · rw [if_pos hf]; exact .inl rfl
    · rw [if_neg hf]; exact .inr ⟨rows, rfl, h1, h2, h3⟩
  · intro hid
    have : codeTables[h.compression.getD 1 0 % 16]? = none := by
      rw [List.getElem?_eq_none]
      simpa [codeTables] using hid
    unfold makePredImage makeHuffmanTree
    rw [this]
    rfl

/-! ### fragments -/

/-- a fragment whose header is complete and tells how many bytes follow -/
def Good (f : Fragment) : Prop := f.head.length = 62 ∧ (parseHeader f.head).length = f.body.length ∧ f.body ≠ []

theorem load_step (xform : Header → List Nat → Except PyErr (List (List Nat))) (file : List Nat) (fuel total : Nat) (first : Option Header)
    (frags : List Nat) (parts : List (List Nat)) (f : Fragment) (rest : List Nat) (hf : Good f)
    (hd : file.drop (total + 2048) = f.bytes ++ rest) (hx : (parseHeader f.head).xcomp = 0) :
    loadFrom xform file (fuel + 1) total first frags parts =
      if (parseHeader f.head).status / 2 % 2 = 1 then makePredImage (parseHeader f.head) (frags ++ f.body)
      else loadFrom xform file fuel (total + 62 + f.body.length + 1) (some (first.getD (parseHeader f.head))) (frags ++ f.body) parts := by
  obtain ⟨h1, h2, h3⟩ := hf
  have hhead : (file.drop (total + 2048)).take headerSize = f.head := by
    rw [hd, Fragment.bytes, List.append_assoc, List.append_assoc]
    exact List.take_left' h1
  have hbody : (file.drop (total + 2048 + headerSize)).take f.body.length = f.body := by
    rw [← List.drop_drop, hd, Fragment.bytes, List.append_assoc, List.append_assoc, headerSize, List.drop_left' h1]
    exact List.take_left' rfl
  have hl0 : ¬ f.body.length = 0 := by simpa using h3
  have hbody' := hbody
  rw [headerSize] at hbody' hhead
  cases first <;>
  · rw [loadFrom]
    simp only [hhead, h1, h2, hbody', hl0, hx, headerSize, if_false, lt_irrefl, ne_eq, not_true_eq_false, false_and, or_true, if_true]

theorem load_last (xform : Header → List Nat → Except PyErr (List (List Nat))) (file : List Nat) (last : Fragment) (hl : Good last)
    (hlx : (parseHeader last.head).xcomp = 0) (hls : (parseHeader last.head).status / 2 % 2 = 1) (rest : List Nat)
    (fs : List Fragment) : ∀ (fuel total : Nat) (first : Option Header) (frags : List Nat),
    (∀ f ∈ fs, Good f ∧ (parseHeader f.head).xcomp = 0 ∧ (parseHeader f.head).status / 2 % 2 = 0) → fs.length < fuel →
    file.drop (total + 2048) = fs.flatMap Fragment.bytes ++ last.bytes ++ rest →
    loadFrom xform file fuel total first frags [] = makePredImage (parseHeader last.head) (frags ++ fs.flatMap Fragment.body ++ last.body) := by
  induction fs with
  | nil =>
    intro fuel total first frags _ hfuel hd
    cases fuel with
    | zero => simp at hfuel
    | succ fuel =>
      rw [load_step xform file fuel total first frags [] last rest hl (by simpa using hd) hlx, if_pos hls]
      simp
  | cons f fs ih =>
    intro fuel total first frags hall hfuel hd
    cases fuel with
    | zero => simp at hfuel
    | succ fuel =>
      obtain ⟨hf, hfx, hfs⟩ := hall f (by simp)
      rw [load_step xform file fuel total first frags [] f (fs.flatMap Fragment.bytes ++ last.bytes ++ rest) hf
        (by rw [hd, List.flatMap_cons]; simp) hfx, if_neg (by omega),
        ih fuel _ _ _ (fun g hg => hall g (by simp [hg])) (by simpa using hfuel)]
      · simp
      · rw [show total + 62 + f.body.length + 1 + 2048 = (total + 2048) + (62 + f.body.length + 1) by omega, ← List.drop_drop, hd,
          List.flatMap_cons, List.append_assoc, List.append_assoc, List.append_assoc]
        exact List.drop_left' (by simp [Fragment.bytes, hf.1]; omega)

/-- **C24 (fragments).** A file is a label of 2048 bytes and fragments. The compressed bytes of all of them up to the one
marked as the last, in order, are decoded as one, with the header of the last. What comes after it does not matter. -/
theorem C24_fragments (xform : Header → List Nat → Except PyErr (List (List Nat))) (label : List Nat) (hlabel : label.length = 2048)
    (fs : List Fragment) (hfs : ∀ f ∈ fs, Good f ∧ (parseHeader f.head).xcomp = 0 ∧ (parseHeader f.head).status / 2 % 2 = 0)
    (last : Fragment) (hl : Good last) (hlx : (parseHeader last.head).xcomp = 0) (hls : (parseHeader last.head).status / 2 % 2 = 1)
    (rest : List Nat) :
    load xform (label ++ (fs.flatMap Fragment.bytes ++ last.bytes ++ rest)) =
      makePredImage (parseHeader last.head) (fs.flatMap Fragment.body ++ last.body) := by
  unfold load
  rw [load_last xform _ last hl hlx hls rest fs _ 0 none [] hfs]
  · simp
  · have : fs.length ≤ (fs.flatMap Fragment.bytes).length := by
      clear hfs
      induction fs with
      | nil => simp
      | cons f fs ih => simp only [List.flatMap_cons, List.length_append, List.length_cons, Fragment.bytes, List.length_nil] at ih ⊢; omega
    simp only [List.length_append]
    omega
  · exact List.drop_left' (by omega)

theorem load_open (xform : Header → List Nat → Except PyErr (List (List Nat))) (file : List Nat) (rest : List Nat) (hrest : rest.length < 62)
    (fs : List Fragment) : ∀ (fuel total : Nat) (first : Header) (frags : List Nat), first.xcomp = 0 →
    (∀ f ∈ fs, Good f ∧ (parseHeader f.head).xcomp = 0 ∧ (parseHeader f.head).status / 2 % 2 = 0) → fs.length < fuel →
    file.drop (total + 2048) = fs.flatMap Fragment.bytes ++ rest →
    loadFrom xform file fuel total (some first) frags [] = makePredImage first (frags ++ fs.flatMap Fragment.body) := by
  induction fs with
  | nil =>
    intro fuel total first frags hx _ hfuel hd
    cases fuel with
    | zero => simp at hfuel
    | succ fuel =>
      rw [List.flatMap_nil, List.nil_append] at hd
      rw [loadFrom]
      simp only [hd]
      rw [if_pos (by simp [headerSize]; omega), if_pos hx]
      simp
  | cons f fs ih =>
    intro fuel total first frags hx hall hfuel hd
    cases fuel with
    | zero => simp at hfuel
    | succ fuel =>
      obtain ⟨hf, hfx, hfs⟩ := hall f (by simp)
      rw [load_step xform file fuel total (some first) frags [] f (fs.flatMap Fragment.bytes ++ rest) hf
        (by rw [hd, List.flatMap_cons]; simp) hfx, if_neg (by omega)]
      simp only [Option.getD_some]
      rw [ih fuel _ _ _ hx (fun g hg => hall g (by simp [hg])) (by simpa using hfuel)]
      · simp
      · rw [show total + 62 + f.body.length + 1 + 2048 = (total + 2048) + (62 + f.body.length + 1) by omega, ← List.drop_drop, hd,
          List.flatMap_cons, List.append_assoc]
        exact List.drop_left' (by simp [Fragment.bytes, hf.1]; omega)

/-- **C24 (no last fragment).** If no fragment is marked as the last, what there is is decoded with the header of the
first. -/
theorem C24_open (xform : Header → List Nat → Except PyErr (List (List Nat))) (label : List Nat) (hlabel : label.length = 2048)
    (f : Fragment) (fs : List Fragment) (hfs : ∀ g ∈ f :: fs, Good g ∧ (parseHeader g.head).xcomp = 0 ∧ (parseHeader g.head).status / 2 % 2 = 0)
    (rest : List Nat) (hrest : rest.length < 62) :
    load xform (label ++ ((f :: fs).flatMap Fragment.bytes ++ rest)) =
      makePredImage (parseHeader f.head) ((f :: fs).flatMap Fragment.body) := by
  unfold load
  obtain ⟨hf, hfx, hfst⟩ := hfs f (by simp)
  have hlen : ∀ gs : List Fragment, gs.length ≤ (gs.flatMap Fragment.bytes).length := by
    intro gs
    induction gs with
    | nil => simp
    | cons f fs ih => simp only [List.flatMap_cons, List.length_append, List.length_cons, Fragment.bytes, List.length_nil] at ih ⊢; omega
  rw [load_step xform _ _ 0 none [] [] f (fs.flatMap Fragment.bytes ++ rest) hf (by
    rw [Nat.zero_add, List.drop_left' (by omega), List.flatMap_cons, List.append_assoc]) hfx, if_neg (by omega)]
  simp only [Option.getD_none]
  rw [load_open xform _ rest hrest fs _ _ _ _ hfx (fun g hg => hfs g (by simp [hg]))]
  · simp
  · have := hlen (f :: fs)
    simp only [List.length_append, List.length_cons] at this ⊢
    omega
  · rw [show 0 + 62 + f.body.length + 1 + 2048 = 2048 + (62 + f.body.length + 1) by omega, ← List.drop_drop, List.drop_left' (by omega),
      List.flatMap_cons, List.append_assoc]
    exact List.drop_left' (by simp [Fragment.bytes, hf.1]; omega)

theorem field_one (d : List Nat) (o : Nat) : field d o 1 = d.getD o 0 := by
  unfold field
  by_cases h : o < d.length
  · rw [List.drop_eq_getElem_cons h, List.take_succ_cons, littleEndian]
    simp [littleEndian, List.getD_eq_getElem?_getD, h]
  · rw [List.drop_eq_nil_of_le (by omega)]
    simp [littleEndian, List.getD_eq_getElem?_getD, List.getElem?_eq_none (show d.length ≤ o by omega)]

theorem field_succ (d : List Nat) (o n : Nat) : field d o (n + 1) = d.getD o 0 + 256 * field d (o + 1) n := by
  unfold field
  by_cases h : o < d.length
  · rw [List.drop_eq_getElem_cons h, List.take_succ_cons, littleEndian]
    simp [littleEndian, List.getD_eq_getElem?_getD, h]
  · rw [List.drop_eq_nil_of_le (by omega), List.drop_eq_nil_of_le (by omega)]
    simp [littleEndian, List.getD_eq_getElem?_getD, List.getElem?_eq_none (show d.length ≤ o by omega)]

/-- **C24 (header).** The fields of the header, by position and number of bytes. -/
theorem C24_header (d : List Nat) :
    (parseHeader d).downLength = field d 6 2 ∧ (parseHeader d).status = field d 13 1 ∧ (parseHeader d).downTotal = field d 40 2 ∧
    (parseHeader d).editLength = field d 43 1 ∧ (parseHeader d).length = field d 58 4 ∧
    ∀ i, i < 8 → (parseHeader d).compression.getD i 0 = field d (44 + i) 1 := by
  refine ⟨?_, ?_, ?_, ?_, ?_, ?_⟩
  · simp only [field_succ d 6 1, field_one, parseHeader, short, word]
  · simp only [field_one, parseHeader]
  · simp only [field_succ d 40 1, field_one, parseHeader, short, word]
  · simp only [field_one, parseHeader]
  · rw [field_succ d 58 3, field_succ d 59 2, field_succ d 60 1, field_one]
    simp only [parseHeader, long, Nat.reduceAdd]
    omega
  · intro i hi
    rw [field_one]
    simp [parseHeader, List.getD_eq_getElem?_getD, List.getElem?_take, hi]

/-- **C24 (files).** A file of label and fragments, the last of them marked (bit 1 of byte 13) and with the size of the image
(bytes 40 to 41 and 43, in units of 16), predictor (byte 44) and code (byte 45), is read back as the image whose coded
sections its fragments contain. Fragments may be cut anywhere. -/
theorem C24_file (xform : Header → List Nat → Except PyErr (List (List Nat))) (label : List Nat) (hlabel : label.length = 2048)
    (fs : List Fragment) (last : Fragment) (rest : List Nat)
    (hgood : ∀ f ∈ fs ++ [last], f.head.length = 62 ∧ field f.head 58 4 = f.body.length ∧ f.body ≠ [] ∧ field f.head 44 1 / 4 % 4 = 0)
    (hfs : ∀ f ∈ fs, field f.head 13 1 / 2 % 2 = 0) (hls : field last.head 13 1 / 2 % 2 = 1)
    (pr : Pred) (hp : field last.head 44 1 % 4 = pr.number) (hid : field last.head 45 1 % 16 < 7)
    (bits len : List Nat) (hc : codeTables[field last.head 45 1 % 16]? = some (bits, len, codeIdentRequant))
    (rows : List (List Nat)) (hne : rows ≠ []) (hpix : ∀ q ∈ rows, ∀ x ∈ q, x < 256)
    (hw : 0 < field last.head 43 1) (hwidth : ∀ q ∈ rows, q.length = field last.head 43 1 * 16)
    (hheight : rows.length = field last.head 40 2 * 16) (post : List Nat)
    (hbody : (fs ++ [last]).flatMap Fragment.body = (sectionsOf pr rows).flatMap (Section.bytes (codeword bits len)) ++ post) :
    load xform (label ++ ((fs ++ [last]).flatMap Fragment.bytes ++ rest)) = .ok rows := by
  have hG : ∀ f ∈ fs ++ [last], Good f ∧ (parseHeader f.head).xcomp = 0 := by
    intro f hf
    obtain ⟨a1, a2, a3, a4⟩ := hgood f hf
    obtain ⟨_, _, _, _, e5, e6⟩ := C24_header f.head
    refine ⟨⟨a1, by rw [e5, a2], a3⟩, ?_⟩
    rw [Header.xcomp, e6 0 (by omega)]
    exact a4
  obtain ⟨_, _, e3, e4, _, e6⟩ := C24_header last.head
  have hL := hG last (by simp)
  have := C24_fragments xform label hlabel fs (fun f hf => ⟨(hG f (by simp [hf])).1, (hG f (by simp [hf])).2, by
    rw [(C24_header f.head).2.1]; exact hfs f hf⟩) last hL.1 hL.2 (by rw [(C24_header last.head).2.1]; exact hls) rest
  rw [List.flatMap_append, List.flatMap_singleton] at hbody ⊢
  rw [this, hbody]
  have h45 : (parseHeader last.head).compression.getD 1 0 = field last.head 45 1 := e6 1 (by omega)
  exact C24_lossless (parseHeader last.head) (by rw [h45]; exact hid) bits len codeIdentRequant (by rw [h45]; exact hc) pr
    (by rw [Header.pcomp, e6 0 (by omega)]; exact hp) rows hne (by rw [e4]; exact hw) (by rw [e4]; exact hwidth) hpix
    (by rw [e3]; exact hheight) post

/-! ### lost markers -/

/-- at this state the marker is not where it is expected -/
def Lost (data : List Nat) (s : State) : Prop :=
  (align s.bits).output + 1 < data.length ∧ word data (align s.bits).output ≠ 0xf0ca

theorem delta_iff (data : List Nat) (o : Nat) : deltaOk data o = true ↔
    ∀ k, 1 ≤ k → k ≤ 31 → o + k + 1 < data.length ∧ ((data.getD (o + k) 0 : Int) - (data.getD (o + k + 1) 0 : Int)).natAbs ≤ 64 := by
  simp only [deltaOk, List.all_eq_true, List.mem_range, Bool.and_eq_true, decide_eq_true_eq]
  constructor
  · intro h k h1 h2
    have := h (k - 1) (by omega)
    rwa [show k - 1 + 1 = k by omega] at this
  · intro h k hk
    exact h (k + 1) (by omega) (by omega)

theorem marker_iff (data : List Nat) (last o : Nat) : MarkerAt data (last + o) ↔
    word (data.drop last) o = 0xf0ca ∧ deltaOk (data.drop last) (o + 2) = true := by
  have hg : ∀ i, (data.drop last).getD i 0 = data.getD (last + i) 0 := by
    intro i
    simp [List.getD_eq_getElem?_getD, List.getElem?_drop]
  rw [delta_iff]
  simp only [MarkerAt, word, hg, List.length_drop, Nat.add_assoc]
  constructor
  · rintro ⟨h1, h2⟩
    refine ⟨h1, fun k a b => ?_⟩
    obtain ⟨h3, h4⟩ := h2 k a b
    exact ⟨by omega, h4⟩
  · rintro ⟨h1, h2⟩
    refine ⟨h1, fun k a b => ?_⟩
    obtain ⟨h3, h4⟩ := h2 k a b
    exact ⟨by omega, h4⟩

theorem findFrom_spec (data : List Nat) (n : Nat) : ∀ o,
    (∃ q, findFrom data n o = some q ∧ o ≤ q ∧ q < o + n ∧ (word data q = 0xf0ca ∧ deltaOk data (q + 2) = true) ∧
      ∀ q', o ≤ q' → q' < q → ¬ (word data q' = 0xf0ca ∧ deltaOk data (q' + 2) = true)) ∨
    (findFrom data n o = none ∧ ∀ q, o ≤ q → q < o + n → ¬ (word data q = 0xf0ca ∧ deltaOk data (q + 2) = true)) := by
  induction n with
  | zero => intro o; exact .inr ⟨rfl, fun q h1 h2 => by omega⟩
  | succ n ih =>
    intro o
    rw [findFrom]
    by_cases hend : data.length ≤ o + 1
    · rw [if_pos hend]
      refine .inr ⟨rfl, ?_⟩
      rintro q h1 _ ⟨_, h3⟩
      have := ((delta_iff data (q + 2)).1 h3 1 (by omega) (by omega)).1
      omega
    · rw [if_neg hend]
      by_cases hm : word data o = 0xf0ca ∧ deltaOk data (o + 2) = true
      · rw [if_pos hm]
        exact .inl ⟨o, rfl, by omega, by omega, hm, fun q' h1 h2 => by omega⟩
      · rw [if_neg hm]
        rcases ih (o + 1) with ⟨q, e, h1, h2, h3, h4⟩ | ⟨e, h⟩
        · refine .inl ⟨q, e, by omega, by omega, h3, fun q' a b => ?_⟩
          by_cases hq : q' = o
          · subst hq; exact hm
          · exact h4 q' (by omega) b
        · refine .inr ⟨e, fun q a b => ?_⟩
          by_cases hq : q = o
          · subst hq; exact hm
          · exact h q (by omega) (by omega)

/-- **C24 (lost marker).** If the marker is not where it is expected, decoding goes on at the first one after the last that
was in its place (and before byte number `len`, the number of pixels of the image) with a plausible line behind it; if
there is none, the image ends there. -/
theorem C24_search (data : List Nat) (len : Nat) (s : State) (h : Lost data s) :
    (∃ o, s.last + 2 ≤ o ∧ o < len ∧ MarkerAt data o ∧ (∀ o', s.last + 2 ≤ o' → o' < o → ¬ MarkerAt data o') ∧
      resync data len s = some { s with bits := { align s.bits with output := o } }) ∨
    ((∀ o, s.last + 2 ≤ o → o < len → ¬ MarkerAt data o) ∧ resync data len s = none) := by
  have hform : resync data len s =
      (findSync (data.drop s.last) (len - s.last)).map fun o => { s with bits := { align s.bits with output := s.last + o } } := by
    unfold resync
    simp only [if_neg (Nat.not_le.2 h.1), if_neg h.2]
    cases findSync (data.drop s.last) (len - s.last) <;> rfl
  by_cases hlen : len - s.last < 2
  · right
    refine ⟨fun o h1 h2 => by omega, ?_⟩
    rw [hform, findSync, if_pos hlen]
    rfl
  · rcases findFrom_spec (data.drop s.last) (len - s.last - 2) 2 with ⟨q, e, h1, h2, h3, h4⟩ | ⟨e, hn⟩
    · left
      refine ⟨s.last + q, by omega, by omega, (marker_iff _ _ _).2 h3, ?_, ?_⟩
      · intro o' a b hm
        rw [show o' = s.last + (o' - s.last) by omega, marker_iff] at hm
        exact h4 (o' - s.last) (by omega) (by omega) hm
      · rw [hform, findSync, if_neg hlen, e]
        rfl
    · right
      refine ⟨?_, ?_⟩
      · intro o a b hm
        rw [show o = s.last + (o - s.last) by omega, marker_iff] at hm
        exact hn (o - s.last) (by omega) (by omega) hm
      · rw [hform, findSync, if_neg hlen, e]
        rfl

/-- and a marker in its place is used -/
theorem C24_marker (data : List Nat) (len : Nat) (s : State) (h1 : (align s.bits).output + 1 < data.length)
    (h2 : data.getD (align s.bits).output 0 + 256 * data.getD ((align s.bits).output + 1) 0 = 0xf0ca) :
    resync data len s = some { s with bits := align s.bits, last := (align s.bits).output } := by
  have h2' : word data (align s.bits).output = 0xf0ca := h2
  simp only [resync, if_neg (Nat.not_le.2 h1), h2', if_true]

/-! ### limits -/

/-- **C59.** A marker found by searching is not remembered: the search always starts at the last marker that was found in
its place. So if the marker is lost again 128 lines later, the same marker is found again, and the section shows the same
first line as the one before instead of going on in the file. -/
theorem C59_repeats (data : List Nat) (w len : Nat) (s s' s2 : State) (h1 : Lost data s) (h2 : Lost data s2)
    (hs : resync data len s = some s') (hlast : s2.last = s'.last) :
    ∃ s2', resync data len s2 = some s2' ∧ s2'.last = s'.last ∧ s2'.bits.output = s'.bits.output ∧
      (decompSync data w s2'.bits).1 = (decompSync data w s'.bits).1 := by
  have hform : ∀ q : State, Lost data q → resync data len q =
      (findSync (data.drop q.last) (len - q.last)).map fun o => { q with bits := { align q.bits with output := q.last + o } } := by
    intro q hq
    unfold resync
    simp only [if_neg (Nat.not_le.2 hq.1), if_neg hq.2]
    cases findSync (data.drop q.last) (len - q.last) <;> rfl
  rw [hform s h1, Option.map_eq_some_iff] at hs
  obtain ⟨o, ho, rfl⟩ := hs
  simp only at hlast
  refine ⟨{ s2 with bits := { align s2.bits with output := s2.last + o } }, ?_, hlast, ?_, ?_⟩
  · rw [hform s2 h2, hlast, ho]
    rfl
  · simp [hlast]
  · simp [decompSync, hlast]

/-! ### examples -/

/-- an image of 16 lines of 16 pixels -/
def exampleRows : List (List Nat) := (List.range 16).map fun i => (List.range 16).map fun j => (7 * i + 3 * j * j) % 256

/-- the header of its only fragment, coded along the line with code 5 -/
def exampleHeader (n : Nat) : List Nat :=
  List.replicate 13 0 ++ [2] ++ List.replicate 26 0 ++ [1, 0, 0, 1, 1, 5] ++ List.replicate 12 0 ++ [n % 256, n / 256, 0, 0]

def exampleData : List Nat := (sectionsOf .x exampleRows).flatMap (Section.bytes (codeword code5Bits code5Len))

example : (parseHeader (exampleHeader 300)).pcomp = 1 ∧ (parseHeader (exampleHeader 300)).xcomp = 0 ∧
    (parseHeader (exampleHeader 300)).editLength = 1 ∧ (parseHeader (exampleHeader 300)).downTotal = 1 ∧
    (parseHeader (exampleHeader 300)).length = 300 ∧ (parseHeader (exampleHeader 300)).status / 2 % 2 = 1 ∧
    (parseHeader (exampleHeader 300)).compression.getD 1 0 % 16 = 5 ∧ (exampleHeader 300).length = 62 := by decide +kernel

-- the same with the fields of the file
example (xform : Header → List Nat → Except PyErr (List (List Nat))) :
    load xform (List.replicate 2048 32 ++ ((⟨exampleHeader 384, exampleData, 0⟩ : Fragment).bytes ++ [1, 2, 3])) = .ok exampleRows := by
  have := C24_file xform (List.replicate 2048 32) List.length_replicate [] ⟨exampleHeader 384, exampleData, 0⟩ [1, 2, 3]
    (by
      intro f hf
      simp only [List.nil_append, List.mem_singleton] at hf
      subst hf
      decide +kernel)
    (by simp) (by decide) .x (by decide) (by decide) code5Bits code5Len rfl exampleRows (by decide) (by decide +kernel) (by decide)
    (by decide +kernel) (by decide) [] (by simp [exampleData])
  rwa [List.nil_append, List.flatMap_singleton] at this

-- the whole file, label and all, is read back as the image
example (xform : Header → List Nat → Except PyErr (List (List Nat))) :
    load xform (List.replicate 2048 32 ++ ((⟨exampleHeader exampleData.length, exampleData, 0⟩ : Fragment).bytes ++ [])) = .ok exampleRows := by
  have hp : parseHeader (exampleHeader exampleData.length) = ⟨0, 2, 1, 1, [1, 5, 0, 0, 0, 0, 0, 0], exampleData.length⟩ := by
    have : exampleData.length = 384 := by decide +kernel
    rw [this]
    rfl
  have h := C24_fragments xform (List.replicate 2048 32) List.length_replicate [] (by simp) ⟨exampleHeader exampleData.length, exampleData, 0⟩
    ⟨rfl, by simp only [hp], by decide +kernel⟩ (by simp only [hp]; decide) (by simp only [hp]) []
  rw [List.flatMap_nil, List.nil_append] at h
  rw [h]
  simp only [hp, List.flatMap_nil, List.nil_append]
  have := C24_lossless ⟨0, 2, 1, 1, [1, 5, 0, 0, 0, 0, 0, 0], exampleData.length⟩ (by decide) code5Bits code5Len codeIdentRequant rfl .x rfl
    exampleRows (by decide) (by decide) (by decide +kernel) (by decide +kernel) (by decide) []
  rw [List.append_nil] at this
  exact this

end Verif.Moc
