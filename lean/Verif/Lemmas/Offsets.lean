/-
Lemmas about block offsets.
-/
import Verif.Spec.Offsets
import Verif.Props.Format
import Verif.Props.Datatypes
import Mathlib.Tactic.Ring

namespace Verif.Format
open Verif.Py Verif.Format.Spec

/-! ### shiftBlock -/

theorem shiftBlock_none (bn : Str) (f : Nat → Int) (rows : List Row) (k : Nat)
    (h : ∀ r ∈ rows, r.fld.blockName ≠ some bn) : shiftBlock bn f rows k = rows := by
  induction rows generalizing k with
  | nil => rfl
  | cons r rs ih =>
    simp only [shiftBlock]
    rw [if_neg (h r (by simp)), ih k (fun r' hr' => h r' (List.mem_cons_of_mem _ hr'))]

theorem shiftBlock_append (bn : Str) (f : Nat → Int) (a b : List Row) (k : Nat) :
    shiftBlock bn f (a ++ b) k =
      shiftBlock bn f a k ++ shiftBlock bn f b (k + a.countP (fun r => r.fld.blockName = some bn)) := by
  induction a generalizing k with
  | nil => simp [shiftBlock]
  | cons r rs ih =>
    simp only [List.cons_append, shiftBlock]
    by_cases h : r.fld.blockName = some bn
    · rw [if_pos h, if_pos h, ih, List.countP_cons_of_pos (by simpa using h)]
      rw [Nat.add_right_comm, Nat.add_assoc]
      rfl
    · rw [if_neg h, if_neg h, ih, List.countP_cons_of_neg (by simpa using h)]
      simp

theorem countP_all (bn : Str) (rows : List Row) (h : ∀ r ∈ rows, r.fld.blockName = some bn) :
    rows.countP (fun r => r.fld.blockName = some bn) = rows.length := by
  rw [List.countP_eq_length]; intro r hr; simpa using h r hr

theorem countP_none (bn : Str) (rows : List Row) (h : ∀ r ∈ rows, r.fld.blockName ≠ some bn) :
    rows.countP (fun r => r.fld.blockName = some bn) = 0 := by
  rw [List.countP_eq_zero]; intro r hr; simpa using h r hr

theorem shiftBlock_const (bn : Str) (d : Int) (rows : List Row) (k : Nat)
    (h : ∀ r ∈ rows, r.fld.blockName = some bn) :
    shiftBlock bn (fun _ => d) rows k = rows.map (fun r => { r with sb := r.sb + d }) := by
  induction rows generalizing k with
  | nil => rfl
  | cons r rs ih =>
    simp only [shiftBlock, List.map_cons]
    rw [if_pos (h r (by simp)), ih _ (fun r' hr' => h r' (List.mem_cons_of_mem _ hr'))]

/-- on rows that are all of the block, a function that is constant there -/
theorem shiftBlock_congr (bn : Str) (f g : Nat → Int) (rows : List Row) (k : Nat)
    (h : ∀ j, k ≤ j → j < k + rows.length → f j = g j) : shiftBlock bn f rows k = shiftBlock bn g rows k := by
  induction rows generalizing k with
  | nil => rfl
  | cons r rs ih =>
    simp only [shiftBlock]
    have h0 : f k = g k := h k (Nat.le_refl _) (by simp)
    split
    · rw [h0, ih (k + 1) (fun j h1 h2 => h j (by omega) (by simp only [List.length_cons]; omega))]
    · rw [ih k (fun j h1 h2 => h j (by omega) (by simp only [List.length_cons]; omega))]

theorem shiftBlock_chunks (bn : Str) (size : Int) (one : List Row) (per : Nat) (hper : one.length = per) (hpos : 0 < per)
    (h : ∀ r ∈ one, r.fld.blockName = some bn) (n k0 : Nat) :
    shiftBlock bn (fun k => ((k / per : Nat) : Int) * size) (List.replicate n one).flatten (k0 * per) =
      (List.range n).flatMap (fun (i : Nat) => one.map (fun r => { r with sb := r.sb + ((k0 + i : Nat) : Int) * size })) := by
  induction n generalizing k0 with
  | zero => rfl
  | succ n ih =>
    rw [List.replicate_succ, List.flatten_cons, shiftBlock_append, countP_all bn one h, hper,
      show k0 * per + per = (k0 + 1) * per by ring, ih (k0 + 1), List.range_succ_eq_map, List.flatMap_cons]
    congr 1
    · rw [shiftBlock_congr bn _ (fun _ => (k0 : Int) * size), shiftBlock_const _ _ _ _ h]
      · simp
      · intro j h1 h2
        rw [hper] at h2
        have : j / per = k0 := by
          rw [Nat.div_eq_iff hpos]
          constructor
          · omega
          · omega
        rw [this]
    · rw [List.flatMap_map]
      simp only [Nat.succ_eq_add_one, show ∀ a, k0 + 1 + a = k0 + (a + 1) by intro a; omega]

theorem chunkOf_even (n per k : Nat) (hn : 0 < n) : chunkOf n (n * per) k = k / per := by
  unfold chunkOf
  simp only [Nat.mul_mod_right, Nat.zero_mul, Nat.not_lt_zero, if_false, Nat.zero_add, Nat.sub_zero]
  rw [Nat.mul_div_cancel_left _ hn]

/-! ### one block -/

theorem offsetBlock_split (rowPrefix : Option Int) (bn : Str) (pre post one : List Row) (prior : Row)
    (n : Nat) (size : Nat) (hph : contains bn c!"PLACEHOLDER" = false)
    (hpre : ∀ r ∈ pre, r.fld.blockName ≠ some bn) (hpost : ∀ r ∈ post, r.fld.blockName ≠ some bn)
    (hone : ∀ r ∈ one, r.fld.blockName = some bn ∧ r.fld.blockReps = n ∧ r.fld.blockBytes = some size)
    (hne : one ≠ []) (hn : 1 ≤ n) (hprior : pre.getLast? = some prior) (hreps : prior.fld.blockReps ≤ 1) :
    offsetBlock rowPrefix bn (pre ++ (List.replicate n one).flatten ++ post) =
      .ok (pre ++ (List.range n).flatMap (fun (i : Nat) => one.map (fun r =>
        { r with sb := r.sb + (prior.sb + prior.fld.bytes - rowPrefix.getD 0) + (i : Int) * size })) ++ post) := by
  have hblk : ∀ r ∈ (List.replicate n one).flatten, r.fld.blockName = some bn ∧ r.fld.blockReps = n ∧
      r.fld.blockBytes = some size := by
    intro r hr
    obtain ⟨l, hl, hr'⟩ := List.mem_flatten.1 hr
    exact hone r (by rw [List.eq_of_mem_replicate hl] at hr'; exact hr')
  have hlen : (List.replicate n one).flatten.length = n * one.length := by simp
  have hpos : 0 < one.length := List.length_pos_iff.2 hne
  have hblkpos : 0 < (List.replicate n one).flatten.length := by
    rw [hlen]; exact Nat.mul_pos (by omega) hpos
  have hprepos : pre ≠ [] := by intro h; rw [h] at hprior; cases hprior
  obtain ⟨q, qs, hq⟩ : ∃ q qs, (List.replicate n one).flatten = q :: qs := by
    cases h : (List.replicate n one).flatten with
    | nil => rw [h] at hblkpos; simp at hblkpos
    | cons q qs => exact ⟨q, qs, rfl⟩
  have hqb := hblk q (by rw [hq]; simp)
  -- the prior row
  have hidx : (pre ++ (List.replicate n one).flatten ++ post).findIdx? (fun r => r.fld.blockName = some bn) =
      some pre.length := by
    rw [List.append_assoc, List.findIdx?_append, (List.findIdx?_eq_none_iff.2 (fun r hr => by simpa using hpre r hr)), hq]
    simp [List.findIdx?_cons, hqb.1]
  have hprow : priorRow bn (pre ++ (List.replicate n one).flatten ++ post) = .ok prior := by
    unfold priorRow
    rw [hph]
    simp only [Bool.false_eq_true, if_false]
    rw [hidx]
    obtain ⟨m, hm⟩ : ∃ m, pre.length = m + 1 := ⟨pre.length - 1, by have := List.length_pos_iff.2 hprepos; omega⟩
    rw [hm]
    simp only
    rw [List.append_assoc, List.getElem?_append_left (by omega)]
    rw [List.getLast?_eq_getElem?, hm, Nat.add_sub_cancel] at hprior
    rw [hprior]
  have hfind : (pre ++ (List.replicate n one).flatten ++ post).find? (fun r => r.fld.blockName = some bn) = some q := by
    rw [List.append_assoc, List.find?_append, List.find?_eq_none.2 (fun r hr => by simpa using hpre r hr), hq]
    simp [hqb.1]
  have hcount : (pre ++ (List.replicate n one).flatten ++ post).countP (fun r => r.fld.blockName = some bn) =
      n * one.length := by
    rw [List.countP_append, List.countP_append, countP_none _ _ hpre, countP_none _ _ hpost,
      countP_all _ _ (fun r hr => (hblk r hr).1), hlen]
    omega
  have hshift : ∀ d : Int, shiftBlock bn (fun _ => d) (pre ++ (List.replicate n one).flatten ++ post) 0 =
      pre ++ (List.replicate n (one.map (fun r => { r with sb := r.sb + d }))).flatten ++ post := by
    intro d
    rw [shiftBlock_append, shiftBlock_append, shiftBlock_none _ _ _ _ hpre, shiftBlock_none _ _ post _ hpost,
      shiftBlock_const _ _ _ _ (fun r hr => (hblk r hr).1)]
    congr 2
    rw [List.map_flatten, List.map_replicate]
  unfold offsetBlock
  rw [hprow]
  simp only [hfind, hcount, hph]
  have hx : ∀ c : Prop, ¬ (1 < prior.fld.blockReps ∧ c) := fun c h => by omega
  simp only [hx, if_false]
  rw [hqb.2.1, hqb.2.2]
  rw [hshift]
  by_cases h1 : n = 1
  · subst h1
    rw [if_pos rfl]
    simp
  · rw [if_neg h1, if_neg (by omega)]
    simp only
    congr 1
    have hone' : ∀ r ∈ one.map (fun r => { r with sb := r.sb + (prior.sb + prior.fld.bytes - rowPrefix.getD 0) }),
        r.fld.blockName = some bn := by
      intro r hr
      obtain ⟨r', hr', rfl⟩ := List.mem_map.1 hr
      exact (hone r' hr').1
    rw [shiftBlock_append, shiftBlock_append, shiftBlock_none _ _ _ _ hpre, shiftBlock_none _ _ post _ hpost,
      countP_none _ _ hpre]
    congr 2
    have hc := shiftBlock_chunks bn size (one.map (fun r => { r with sb := r.sb + (prior.sb + prior.fld.bytes - rowPrefix.getD 0) }))
      one.length (by simp) hpos hone' n 0
    rw [Nat.zero_mul] at hc
    rw [shiftBlock_congr bn _ (fun k => ((k / one.length : Nat) : Int) * (size : Int)), hc]
    · simp [List.map_map, Function.comp_def]
    · intro j _ _
      rw [chunkOf_even _ _ _ (by omega)]

/-! ### the rows of an entry -/

/-- the field of a column -/
def fldOf (info : Info) (c : Col) : Fld where
  name := c.name
  startByte := c.start
  bytes := c.bytes
  itemBytes := c.itemBytes
  itemOffset := c.itemOffset
  blockName := info.name
  blockReps := info.reps
  blockBytes := info.bytes
  attrs := c.attrs

/-- copies of a column at one place -/
def colRows (info : Info) (base : Int) (c : Col) : List Row :=
  List.replicate (copies c.items) ⟨fldOf info c, base + (c.start - 1)⟩

/-- rows before the block offsets are added -/
def init (T : Info) (p : Int) : Entry → List Row
  | .col c => colRows T p c
  | .cont n _ b r cs => (List.replicate (copies r) (cs.flatMap (colRows ⟨some n, r.getD 1, some b⟩ p))).flatten

/-- rows after the block offsets are added -/
def mid (T : Info) (p : Int) : Entry → List Row
  | .col c => colRows T p c
  | .cont n s b r cs => (List.range (copies r)).flatMap (fun (i : Nat) =>
      cs.flatMap (colRows ⟨some n, r.getD 1, some b⟩ (p + (s - 1) + i * b)))

theorem allColumns_cols (info : Info) (cs : List Col) :
    allColumns info (cs.map Col.toDef) = cs.flatMap (fun c => List.replicate (copies c.items) (fldOf info c)) := by
  induction cs with
  | nil => rfl
  | cons c cs ih => simp only [List.map_cons, allColumns, ih, List.flatMap_cons, Col.toDef, columnsOf]; rfl

theorem init_fields (T : Info) (p : Option Int) (es : List Entry) :
    initialRows (allColumns T (es.map Entry.toDef)) p = es.flatMap (init T (p.getD 0)) := by
  induction es with
  | nil => rfl
  | cons e es ih =>
    simp only [List.map_cons, allColumns, List.flatMap_cons]
    unfold initialRows at ih ⊢
    rw [List.map_append, ih]
    congr 1
    cases e with
    | col c =>
      simp only [Entry.toDef, Col.toDef, columnsOf, init, colRows, List.map_replicate, fldOf, Int.add_comm]
    | cont n s b r cs =>
      simp only [Entry.toDef, columnsOf, init, allColumns_cols]
      rw [List.map_flatten, List.map_replicate, List.map_flatMap]
      congr 3
      funext c
      simp only [colRows, List.map_replicate, fldOf, Int.add_comm]

theorem mem_colRows {info : Info} {base : Int} {c : Col} {r : Row} (h : r ∈ colRows info base c) :
    r.fld = fldOf info c := by
  rw [List.eq_of_mem_replicate h]

theorem copies_pos (r : Option Nat) : 0 < copies r := by
  cases r <;> simp [copies]

theorem colRows_ne (info : Info) (base : Int) (c : Col) : colRows info base c ≠ [] := by
  have := copies_pos c.items
  intro h
  have := congrArg List.length h
  simp [colRows] at this
  omega

theorem copies_eq {r : Option Nat} (h : 1 ≤ r.getD 1) : copies r = r.getD 1 := by
  cases r with
  | none => rfl
  | some n => simp only [copies, Option.getD_some] at *; omega

/-- block name of the rows of an entry -/
def blockOf (T : Info) : Entry → Option Str
  | .col _ => T.name
  | .cont n _ _ _ _ => some n

theorem init_block (T : Info) (p : Int) (e : Entry) : ∀ r ∈ init T p e, r.fld.blockName = blockOf T e := by
  cases e with
  | col c => intro r hr; rw [mem_colRows hr]; rfl
  | cont n s b r cs =>
    intro row hr
    obtain ⟨l, hl, hr'⟩ := List.mem_flatten.1 hr
    rw [List.eq_of_mem_replicate hl] at hr'
    obtain ⟨c, _, hc⟩ := List.mem_flatMap.1 hr'
    rw [mem_colRows hc]; rfl

theorem mid_block (T : Info) (p : Int) (e : Entry) : ∀ r ∈ mid T p e, r.fld.blockName = blockOf T e := by
  cases e with
  | col c => intro r hr; rw [mem_colRows hr]; rfl
  | cont n s b r cs =>
    intro row hr
    obtain ⟨i, _, hr'⟩ := List.mem_flatMap.1 hr
    obtain ⟨c, _, hc⟩ := List.mem_flatMap.1 hr'
    rw [mem_colRows hc]; rfl

theorem mid_name (T : Info) (p : Int) (e : Entry) (he : e.Ok) : ∀ r ∈ init T p e, r.fld.name ≠ c!"PLACEHOLDER_0" := by
  cases e with
  | col c => intro r hr; rw [mem_colRows hr]; exact he.1
  | cont n s b r cs =>
    intro row hr
    obtain ⟨l, hl, hr'⟩ := List.mem_flatten.1 hr
    rw [List.eq_of_mem_replicate hl] at hr'
    obtain ⟨c, hcs, hc⟩ := List.mem_flatMap.1 hr'
    rw [mem_colRows hc]; exact (he.1 c hcs).1

/-- last row of an entry -/
theorem mid_last (T : Info) (p : Int) (e : Entry) (hT : T.reps ≤ 1) (he : e.Ok) (hr : e.repeated = false) :
    ∃ row, (mid T p e).getLast? = some row ∧ row.sb + row.fld.bytes = p + e.endByte ∧ row.fld.blockReps ≤ 1 := by
  have last_rep : ∀ (info : Info) (base : Int) (c : Col), (colRows info base c).getLast? =
      some ⟨fldOf info c, base + (c.start - 1)⟩ := by
    intro info base c
    unfold colRows
    have := copies_pos c.items
    rw [List.getLast?_replicate, if_neg (by omega)]
  cases e with
  | col c =>
    refine ⟨_, last_rep T p c, ?_, hT⟩
    simp only [fldOf, Entry.endByte]; ring
  | cont n s b r cs =>
    obtain ⟨h1, h2, h3, h4⟩ := he
    have hone : r.getD 1 = 1 := by
      simp only [Entry.repeated, decide_eq_false_iff_not] at hr; omega
    obtain ⟨cs', c, rfl⟩ : ∃ cs' c, cs = cs' ++ [c] := ⟨cs.dropLast, cs.getLast h2, (List.dropLast_append_getLast h2).symm⟩
    simp only [mid]
    rw [copies_eq h3, hone]
    refine ⟨⟨fldOf ⟨some n, 1, some b⟩ c, p + (s - 1) + (c.start - 1)⟩, ?_, ?_, ?_⟩
    · simp [List.flatMap_append, List.range_one, List.getLast?_append, last_rep]
    · simp [fldOf, Entry.endByte]; ring
    · simp [fldOf]

/-! ### the loop over blocks -/

theorem placeholderName_contains (s : Str) : contains (placeholderName s) c!"PLACEHOLDER" = true := by
  rw [Verif.Datatypes.contains_iff]
  exact ⟨[], '_' :: s, by simp [placeholderName]⟩

theorem offsetBlocks_loop (T : Info) (p : Option Int) (first : Option Str) (hT : T.reps ≤ 1) (rest : List Entry) :
    ∀ (last : Entry) (pre : List Row), (∀ e ∈ rest, e.Ok) → (contNames rest).Nodup → Adjacent last rest →
      (∀ n ∈ contNames rest, T.name ≠ some n) →
      (last.repeated = false → ∃ row, pre.getLast? = some row ∧ row.sb + row.fld.bytes = p.getD 0 + last.endByte ∧
        row.fld.blockReps ≤ 1) →
      (∀ r ∈ pre, ∀ n ∈ contNames rest, r.fld.blockName ≠ some n) →
      offsetBlocks p first ((contNames rest).map some) (pre ++ rest.flatMap (init T (p.getD 0))) =
        .ok (pre ++ rest.flatMap (mid T (p.getD 0))) := by
  induction rest with
  | nil => intro last pre _ _ _ _ _ _; simp [contNames, offsetBlocks]
  | cons e es ih =>
    intro last pre hok hnd hadj hTn hlast hpre
    have hoke := hok e (by simp)
    have hokes := fun e' h' => hok e' (List.mem_cons_of_mem _ h')
    cases e with
    | col c =>
      simp only [contNames, Adjacent] at *
      have := ih (.col c) (pre ++ colRows T (p.getD 0) c) hokes hnd hadj hTn
        (fun _ => by
          obtain ⟨row, h1, h2, h3⟩ := mid_last T (p.getD 0) (.col c) hT hoke rfl
          refine ⟨row, ?_, h2, h3⟩
          rw [List.getLast?_append]
          simp only [mid] at h1
          rw [h1]; rfl)
        (fun r hr n hn => by
          rcases List.mem_append.1 hr with h | h
          · exact hpre r h n hn
          · rw [mem_colRows h]; exact hTn n hn)
      simpa only [List.flatMap_cons, init, mid, List.append_assoc] using this
    | cont n s b r cs =>
      obtain ⟨hrep, hs, hadj'⟩ := hadj
      obtain ⟨hcok, hcne, hr1, hnp⟩ := hoke
      simp only [contNames, List.nodup_cons, List.mem_cons] at hnd hTn hpre
      obtain ⟨prior, hp1, hp2, hp3⟩ := hlast hrep
      have hnames : ∀ r ∈ es.flatMap (init T (p.getD 0)), r.fld.blockName ≠ some n := by
        intro row hrow heq
        obtain ⟨e', he', hr'⟩ := List.mem_flatMap.1 hrow
        rw [init_block T _ e' row hr'] at heq
        cases e' with
        | col c => exact hTn n (Or.inl rfl) heq
        | cont n' s' b' r' cs' =>
          simp only [blockOf, Option.some.injEq] at heq
          subst heq
          apply hnd.1
          clear ih hadj' hok hokes hnd hTn hpre hrow
          induction es with
          | nil => cases he'
          | cons x xs ihx =>
            rcases List.mem_cons.1 he' with h | h
            · subst h; simp [contNames]
            · cases x with
              | col c => exact ihx h
              | cont => exact List.mem_cons_of_mem _ (ihx h)
      have hstep := offsetBlock_split p n pre (es.flatMap (init T (p.getD 0)))
        (cs.flatMap (colRows ⟨some n, r.getD 1, some b⟩ (p.getD 0))) prior (r.getD 1) b hnp
        (fun r hr => hpre r hr n (Or.inl rfl)) hnames
        (fun row hrow => by
          obtain ⟨c, _, hc⟩ := List.mem_flatMap.1 hrow
          rw [mem_colRows hc]; exact ⟨rfl, rfl, rfl⟩)
        (by
          obtain ⟨c, cs', rfl⟩ := List.exists_cons_of_ne_nil hcne
          intro h
          rw [List.flatMap_cons] at h
          exact colRows_ne _ _ _ (List.append_eq_nil_iff.1 h).1)
        hr1 hp1 hp3
      have hmid : (List.range (r.getD 1)).flatMap (fun (i : Nat) =>
          (cs.flatMap (colRows ⟨some n, r.getD 1, some b⟩ (p.getD 0))).map (fun row =>
            { row with sb := row.sb + (prior.sb + prior.fld.bytes - p.getD 0) + (i : Int) * b })) =
          mid T (p.getD 0) (.cont n s b r cs) := by
        simp only [mid, copies_eq hr1]
        congr 1
        funext i
        rw [List.map_flatMap]
        congr 1
        funext c
        simp only [colRows, List.map_replicate]
        congr 2
        rw [hs]
        rw [hp2]
        ring
      rw [hmid] at hstep
      simp only [contNames, List.map_cons, offsetBlocks, List.flatMap_cons]
      rw [if_neg]
      · simp only [init, copies_eq hr1]
        rw [← List.append_assoc, hstep]
        simp only
        have := ih (.cont n s b r cs) (pre ++ mid T (p.getD 0) (.cont n s b r cs)) hokes hnd.2 hadj'
          (fun m hm => hTn m (Or.inr hm))
          (fun hrep' => by
            obtain ⟨row, h1, h2, h3⟩ := mid_last T (p.getD 0) (.cont n s b r cs) hT ⟨hcok, hcne, hr1, hnp⟩ hrep'
            exact ⟨row, by rw [List.getLast?_append, h1]; rfl, h2, h3⟩)
          (fun row hrow m hm => by
            rcases List.mem_append.1 hrow with h | h
            · exact hpre row h m (Or.inr hm)
            · rw [mid_block T _ _ row h]
              intro heq
              simp only [blockOf, Option.some.injEq] at heq
              subst heq
              exact hnd.1 hm)
        rw [this, List.append_assoc]
      · rintro (h | h)
        · rw [h] at hnp; exact absurd hnp (by decide)
        · rw [h, placeholderName_contains] at hnp; exact absurd hnp (by simp)

/-! ### items -/

theorem insert_eq (x : Int) (n : Nat) (rest : List (Int × Nat)) :
    countSorted.insert x ((x, n) :: rest) = (x, n + 1) :: rest := by
  simp [countSorted.insert]

theorem insert_lt (x : Int) (l : List (Int × Nat)) (h : ∀ e ∈ l, x < e.1) :
    countSorted.insert x l = (x, 1) :: l := by
  cases l with
  | nil => rfl
  | cons e es =>
    obtain ⟨y, n⟩ := e
    have := h (y, n) (by simp)
    simp only at this
    simp only [countSorted.insert]
    rw [if_pos this]

theorem countSorted_run (x : Int) (n : Nat) (hn : 0 < n) (rest : List Int)
    (h : ∀ e ∈ countSorted rest, x < e.1) :
    countSorted (List.replicate n x ++ rest) = (x, n) :: countSorted rest := by
  induction n with
  | zero => omega
  | succ n ih =>
    rw [List.replicate_succ, List.cons_append, countSorted]
    cases n with
    | zero => simpa using insert_lt x _ h
    | succ n => rw [ih (by omega), insert_eq]

/-- a column of an object that starts at a byte -/
abbrev Run := Info × Int × Col

/-- its rows before and after the item offsets -/
def Run.rows (r : Run) : List Row := colRows r.1 r.2.1 r.2.2
/-- its rows before and after the item offsets -/
def Run.fin (r : Run) : List Row :=
  (List.range (copies r.2.2.items)).map (fun (i : Nat) => ⟨fldOf r.1 r.2.2, r.2.1 + (r.2.2.start - 1) + i * r.2.2.stride⟩)
/-- has items -/
def Run.item (r : Run) : Bool := r.2.2.itemBytes.isSome

theorem itemSize_some {info : Info} {c : Col} (h : c.itemBytes.isSome = true) :
    itemSize (fldOf info c) = some c.stride := by
  unfold itemSize Col.stride fldOf
  obtain ⟨b, hb⟩ := Option.isSome_iff_exists.1 h
  cases ho : c.itemOffset <;> simp [hb]

theorem itemSize_none {info : Info} {c : Col} (hc : c.Ok) (h : c.itemBytes.isSome = false) :
    itemSize (fldOf info c) = none := by
  have hb : c.itemBytes = none := by simpa using h
  unfold itemSize fldOf
  cases ho : c.itemOffset with
  | none => simp [hb]
  | some o =>
    obtain ⟨b, hb', _⟩ := hc.2.2 o ho
    rw [hb] at hb'; cases hb'

theorem group_eq (rs : List Run) (h : ∀ r ∈ rs, r.2.2.Ok) :
    (rs.flatMap Run.rows).filter (fun r => (itemSize r.fld).isSome) = (rs.filter Run.item).flatMap Run.rows := by
  induction rs with
  | nil => rfl
  | cons r rs ih =>
    have ih' := ih (fun r' h' => h r' (List.mem_cons_of_mem _ h'))
    rw [List.flatMap_cons, List.filter_append, ih']
    cases hi : r.item with
    | true =>
      rw [List.filter_cons_of_pos hi, List.flatMap_cons]
      congr 1
      rw [List.filter_eq_self]
      intro row hrow
      rw [mem_colRows hrow, itemSize_some hi]; rfl
    | false =>
      rw [List.filter_cons_of_neg (by simp [hi])]
      rw [List.filter_eq_nil_iff.2, List.nil_append]
      intro row hrow
      rw [mem_colRows hrow, itemSize_none (h r (by simp)) hi]; simp

theorem counts_eq (rs : List Run) (h : (rs.map (fun r => r.2.1 + (r.2.2.start - 1))).Pairwise (· < ·)) :
    countSorted ((rs.flatMap Run.rows).map (·.sb)) =
      rs.map (fun r => (r.2.1 + (r.2.2.start - 1), copies r.2.2.items)) := by
  induction rs with
  | nil => rfl
  | cons r rs ih =>
    rw [List.map_cons, List.pairwise_cons] at h
    have ih' := ih h.2
    have e : (r :: rs).flatMap Run.rows = r.rows ++ rs.flatMap Run.rows := List.flatMap_cons
    rw [e, List.map_append, show (r.rows).map (·.sb) = List.replicate (copies r.2.2.items) (r.2.1 + (r.2.2.start - 1)) by
      simp [Run.rows, colRows], countSorted_run _ _ (copies_pos _), ih']
    · rfl
    · rw [ih']
      intro e he
      obtain ⟨r', hr', rfl⟩ := List.mem_map.1 he
      exact h.1 _ (List.mem_map.2 ⟨r', hr', rfl⟩)

theorem itemOffsets_eq (rs : List Run) (hi : ∀ r ∈ rs, r.item = true) :
    itemOffsets (rs.map (fun r => (r.2.1 + (r.2.2.start - 1), copies r.2.2.items)))
      ((rs.flatMap Run.rows).filterMap (fun r => itemSize r.fld)) = (rs.flatMap Run.fin).map (·.sb) := by
  induction rs with
  | nil => rfl
  | cons r rs ih =>
    have ih' := ih (fun r' h' => hi r' (List.mem_cons_of_mem _ h'))
    have hs : (r.rows).filterMap (fun r => itemSize r.fld) = List.replicate (copies r.2.2.items) r.2.2.stride := by
      simp only [Run.rows, colRows]
      rw [List.filterMap_replicate]
      simp [itemSize_some (hi r (by simp))]
    rw [List.flatMap_cons, List.filterMap_append, hs, List.map_cons, List.flatMap_cons, List.map_append]
    simp only [itemOffsets]
    rw [List.drop_left' (by simp), ih']
    congr 1
    have hp := copies_pos r.2.2.items
    simp only [Run.fin, List.map_map]
    refine List.map_congr_left ?_
    intro i _
    obtain ⟨m, hm⟩ : ∃ m, copies r.2.2.items = m + 1 := ⟨copies r.2.2.items - 1, by omega⟩
    rw [hm, List.replicate_succ]
    simp
    ring

theorem assign_skip (a b : List Row) (offs : List Int) (h : ∀ r ∈ a, itemSize r.fld = none) :
    assignItems (a ++ b) offs = a ++ assignItems b offs := by
  induction a with
  | nil => rfl
  | cons r rs ih =>
    simp only [List.cons_append, assignItems, h r (by simp), Option.isSome_none, Bool.false_eq_true, if_false]
    rw [ih (fun r' h' => h r' (List.mem_cons_of_mem _ h'))]

theorem assign_run (f : Fld) (x : Int) (hf : (itemSize f).isSome = true) (b : List Row) (os offs : List Int) :
    assignItems (List.replicate os.length ⟨f, x⟩ ++ b) (os ++ offs) = os.map (fun o => ⟨f, o⟩) ++ assignItems b offs := by
  induction os with
  | nil => rfl
  | cons o os ih =>
    simp only [List.length_cons, List.replicate_succ, List.cons_append, assignItems, hf, if_true, ih, List.map_cons]

theorem assign_eq (rs : List Run) (h : ∀ r ∈ rs, r.2.2.Ok) :
    assignItems (rs.flatMap Run.rows) (((rs.filter Run.item).flatMap Run.fin).map (·.sb)) = rs.flatMap Run.fin := by
  induction rs with
  | nil => rfl
  | cons r rs ih =>
    have ih' := ih (fun r' h' => h r' (List.mem_cons_of_mem _ h'))
    rw [List.flatMap_cons, List.flatMap_cons]
    cases hi : r.item with
    | true =>
      rw [List.filter_cons_of_pos hi, List.flatMap_cons, List.map_append]
      have hl : (r.fin.map (·.sb)).length = copies r.2.2.items := by simp [Run.fin]
      have := assign_run (fldOf r.1 r.2.2) (r.2.1 + (r.2.2.start - 1)) (by rw [itemSize_some hi]; rfl)
        (rs.flatMap Run.rows) (r.fin.map (·.sb)) (((rs.filter Run.item).flatMap Run.fin).map (·.sb))
      rw [hl] at this
      simp only [Run.rows, colRows] at this ⊢
      rw [this]
      congr 1
      simp [Run.fin]
    | false =>
      rw [List.filter_cons_of_neg (by simp [hi])]
      rw [assign_skip _ _ _ (fun row hrow => by rw [mem_colRows hrow, itemSize_none (h r (by simp)) hi]), ih']
      congr 1
      have hit : r.2.2.items = none := by
        cases hx : r.2.2.items with
        | none => rfl
        | some k =>
          have := (h r (by simp)).2.1 (by rw [hx]; rfl)
          simp only [Run.item] at hi
          rw [hi] at this; cases this
      simp only [Run.rows, colRows, Run.fin, hit, copies]
      simp

theorem applyItems_eq (rs : List Run) (h : ∀ r ∈ rs, r.2.2.Ok)
    (hs : ((rs.filter Run.item).map (fun r => r.2.1 + (r.2.2.start - 1))).Pairwise (· < ·)) :
    applyItems (rs.flatMap Run.rows) = .ok (rs.flatMap Run.fin) := by
  have hfin := assign_eq rs h
  unfold applyItems
  split
  · rw [if_neg]
    · simp only
      rw [group_eq rs h, counts_eq _ hs, itemOffsets_eq _ (fun r hr => (List.mem_filter.1 hr).2), hfin]
    · intro hany
      obtain ⟨row, hrow, hb⟩ := List.any_eq_true.1 hany
      obtain ⟨r, hr, hrr⟩ := List.mem_flatMap.1 hrow
      rw [mem_colRows hrr] at hb
      simp only [fldOf] at hb
      cases ho : r.2.2.itemOffset with
      | none => rw [ho] at hb; simp at hb
      | some o =>
        obtain ⟨b, hb', hle⟩ := (h r hr).2.2 o ho
        rw [ho, hb'] at hb
        simp at hb
        omega
  · rename_i hany
    have hno : rs.filter Run.item = [] := by
      rw [List.filter_eq_nil_iff]
      intro r hr hi
      apply hany
      refine List.any_eq_true.2 ⟨⟨fldOf r.1 r.2.2, r.2.1 + (r.2.2.start - 1)⟩, ?_, hi⟩
      refine List.mem_flatMap.2 ⟨r, hr, ?_⟩
      exact List.mem_replicate.2 ⟨by have := copies_pos r.2.2.items; omega, rfl⟩
    rw [hno] at hfin
    rw [← hfin]
    congr 1
    have : ∀ (l : List Row), (∀ r ∈ l, itemSize r.fld = none) → assignItems l [] = l := by
      intro l hl
      have := assign_skip l [] [] hl
      simpa [assignItems] using this
    refine (this _ ?_).symm
    intro row hrow
    obtain ⟨r, hr, hrr⟩ := List.mem_flatMap.1 hrow
    rw [mem_colRows hrr]
    refine itemSize_none (h r hr) ?_
    have := (List.filter_eq_nil_iff.1 hno) r hr
    simpa [Run.item] using this

end Verif.Format
