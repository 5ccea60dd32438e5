/-
C63: SCALING_FACTOR and OFFSET of table columns.
-/
import Verif.Props.Table
import Verif.Props.Pds4Scale

namespace Verif.Table
open Verif.Py Verif.Format Verif.Format.Spec Verif.Datatypes Verif.Datatypes.Spec Verif.NumPy Verif.Scaling
  Verif.Float Verif.Table.Spec

/-- the numbers of a column -/
def Holds : Column → List (Option ℚ) → Prop
  | .ints _ vs, xs => xs = vs.map (fun (v : Int) => some (v : ℚ))
  | .floats _ vs, xs => xs = vs
  | _, _ => False

/-- an operation with the number `n` is exact on a column that holds `xs` -/
def OkFor (op : ℚ → ℚ → ℚ) (n : Num) (xs : List (Option ℚ)) : Column → Prop
  | .ints t _ => 1 ≤ t.bits ∧ Rep double n.val ∧ (∀ x, some x ∈ xs → Rep double x ∧ Rep double (op x n.val)) ∧
      ∀ i, n = .int i → InRange t i ∧ ∀ x, some x ∈ xs → InRange t (op x n.val)
  | .floats .f32 _ => Rep single n.val ∧ ∀ x, some x ∈ xs → Rep single (op x n.val)
  | .floats .f64 _ => Rep double n.val ∧ ∀ x, some x ∈ xs → Rep double (op x n.val)
  | _ => False

/-- the column has the same dtype, or is float64 instead of integer -/
def Becomes : Column → Column → Prop
  | .ints t _, .ints t' _ => t = t'
  | .ints _ _, .floats w _ => w = .f64
  | .floats w _, .floats w' _ => w = w'
  | _, _ => False

theorem fop_exact {F : Float.Format} (R : Rounding F) (op : ℚ → ℚ → ℚ) (s : ℚ) (vs : List (Option ℚ))
    (h : ∀ x, some x ∈ vs → Rep F (op x s)) : vs.map (fop R op s) = vs.map (Option.map (fun x => op x s)) := by
  apply List.map_congr_left
  intro v hv
  cases v with
  | none => rfl
  | some x =>
    have := h x hv
    simp only [fop, Option.map_some]
    rw [if_pos (lt_limit this), R.exact _ this]

theorem arith_step (R : Rounding double) (R' : Rounding single) (op : ℚ → ℚ → ℚ) (iop : Int → Int → Int)
    (hop : ∀ a b : Int, ((iop a b : Int) : ℚ) = op a b) (c : Column) (n n' : Num)
    (hn : n' = n ∨ n' = .float (R.fl n.val)) (xs : List (Option ℚ)) (hc : Holds c xs) (hok : OkFor op n xs c) :
    ∃ c', arith R R' op iop c n' = .ok c' ∧ Holds c' (xs.map (Option.map (fun x => op x n.val))) ∧ Becomes c c' := by
  cases c with
  | ints t vs =>
    obtain ⟨hb, hr, hx, hi⟩ := hok
    have hval : n'.val = n.val := by
      rcases hn with rfl | rfl
      · rfl
      · exact R.exact _ hr
    simp only [Holds] at hc
    subst hc
    have hfl : ∀ y, n'.val = y → ∃ c', (Except.ok (Column.floats .f64 (vs.map (fun (v : Int) => fop R op y (some (R.fl v))))) :
        Except PyErr Column) = .ok c' ∧
        Holds c' ((vs.map (fun (v : Int) => some (v : ℚ))).map (Option.map (fun x => op x n.val))) ∧ Becomes (.ints t vs) c' := by
      intro y hy
      refine ⟨_, rfl, ?_, rfl⟩
      simp only [Holds]
      rw [List.map_map]
      apply List.map_congr_left
      intro v hv
      have h1 := hx v (List.mem_map.2 ⟨v, hv, rfl⟩)
      simp only [Function.comp_apply, Option.map_some, fop]
      rw [R.exact _ h1.1, ← hy, hval, if_pos (lt_limit h1.2), R.exact _ h1.2]
    cases n' with
    | float y => exact hfl y rfl
    | int i =>
      have hni : n = .int i := by
        rcases hn with h | h
        · exact h.symm
        · cases h
      subst hni
      obtain ⟨h1, h2⟩ := hi i rfl
      simp only [InRange, Num.val] at h1 h2
      simp only [arith]
      rw [if_pos ⟨by exact_mod_cast h1.1, by exact_mod_cast h1.2⟩]
      refine ⟨_, rfl, ?_, rfl⟩
      simp only [Holds]
      rw [List.map_map, List.map_map]
      apply List.map_congr_left
      intro v hv
      have h3 := h2 v (List.mem_map.2 ⟨v, hv, rfl⟩)
      rw [← hop] at h3
      simp only [Function.comp_apply, Option.map_some, Num.val]
      rw [wrap_id t hb _ (by exact_mod_cast h3.1) (by exact_mod_cast h3.2), hop]
  | floats w vs =>
    simp only [Holds] at hc
    subst hc
    cases w with
    | f32 =>
      obtain ⟨hr, hx⟩ := hok
      have hval : n'.val = n.val := by
        rcases hn with rfl | rfl
        · rfl
        · exact R.exact _ (rep_double hr)
      simp only [arith, hval]
      rw [if_pos (lt_limit hr)]
      refine ⟨_, rfl, ?_, rfl⟩
      simp only [Holds]
      rw [R'.exact _ hr, fop_exact R' op _ _ hx]
    | f64 =>
      obtain ⟨hr, hx⟩ := hok
      have hval : n'.val = n.val := by
        rcases hn with rfl | rfl
        · rfl
        · exact R.exact _ hr
      simp only [arith, hval]
      rw [if_pos (lt_limit hr)]
      refine ⟨_, rfl, ?_, rfl⟩
      simp only [Holds]
      rw [R.exact _ hr, fop_exact R op _ _ hx]
  | bytes vs => exact hok.elim
  | bools vs => exact hok.elim
  | texts vs => exact hok.elim

theorem becomes_refl {c : Column} {xs : List (Option ℚ)} (h : Holds c xs) : Becomes c c := by
  cases c <;> first | rfl | exact h.elim

/-- a step with an optional number: `one` is the number that changes nothing -/
theorem apply_step (R : Rounding double) (R' : Rounding single) (op : ℚ → ℚ → ℚ) (iop : Int → Int → Int)
    (hop : ∀ a b : Int, ((iop a b : Int) : ℚ) = op a b) (c : Column) (a a' : Option Num)
    (ha : a' = a ∨ a' = a.map (fun n => .float (R.fl n.val))) (xs : List (Option ℚ)) (hc : Holds c xs)
    (hok : ∀ n, a = some n → OkFor op n xs c ∧ Rep double n.val) (hz : ∀ n, a = some n → n.val = 0 → ∀ x, op x 0 = x) :
    ∃ c', applyNum R R' op iop c a' = .ok c' ∧ Holds c' (xs.map (Option.map (fun x => match a with | some n => op x n.val | none => x))) ∧
      Becomes c c' := by
  cases a with
  | none =>
    have : a' = none := by rcases ha with h | h <;> exact h
    subst this
    refine ⟨c, rfl, ?_, becomes_refl hc⟩
    have : xs.map (Option.map (fun x : ℚ => x)) = xs := by
      have : (fun x : ℚ => x) = id := rfl
      rw [this, Option.map_id]
      exact List.map_id _
    simp only
    rw [this]
    exact hc
  | some n =>
    obtain ⟨h1, h2⟩ := hok n rfl
    obtain ⟨n', rfl, hn'⟩ : ∃ n', a' = some n' ∧ (n' = n ∨ n' = .float (R.fl n.val)) := by
      rcases ha with h | h
      · exact ⟨n, h, Or.inl rfl⟩
      · exact ⟨_, h, Or.inr rfl⟩
    have hval : n'.val = n.val := by
      rcases hn' with rfl | rfl
      · rfl
      · exact R.exact _ h2
    simp only [applyNum, hval]
    by_cases h0 : n.val = 0
    · rw [if_pos h0]
      refine ⟨c, rfl, ?_, becomes_refl hc⟩
      have : xs.map (Option.map (fun x : ℚ => op x n.val)) = xs := by
        have : (fun x : ℚ => op x n.val) = id := by
          funext x
          rw [h0]
          exact hz n rfl h0 x
        rw [this, Option.map_id]
        exact List.map_id _
      rw [this]
      exact hc
    · rw [if_neg h0]
      exact arith_step R R' op iop hop c n n' hn' xs hc h1

/-- the number of a value -/
def numberOf : Value → Option ℚ
  | .int n => some n
  | .real x => some x
  | _ => none

theorem numberOf_amount {v : Value} {x : ℚ} : numberOf v = some x ↔ Amount v x := by
  constructor
  · intro h
    cases v <;> simp only [numberOf, Option.some.injEq, reduceCtorEq] at h <;> subst h
    · exact .int
    · exact .real
  · intro h
    cases h <;> rfl

theorem scaled_plain (a : Attrs) (h1 : a.scale = none) (h2 : a.offset = none) (vs : List Value) :
    List.Forall₂ (Scaled a) vs vs := by
  rw [List.forall₂_same]
  intro v _
  exact .plain h1 h2

/-- a column of numbers that is scaled exactly -/
theorem scale_exact (R : Rounding double) (R' : Rounding single) (a : Attrs) (sc of : Option Num)
    (hsc : sc = a.scale ∨ sc = a.scale.map (fun n => .float (R.fl n.val)))
    (hof : of = a.offset ∨ of = a.offset.map (fun n => .float (R.fl n.val))) (d : Dtype) (c : Column) (vs : List Value)
    (hfit : Fits d c) (hshow : Shows c vs) (h0 : factor a ≠ 0)
    (hex : ExactFor a (fun x => ∃ v ∈ vs, Amount v x) d) :
    ∃ c', scaleCol R R' c sc of = .ok c' ∧ ∃ ws, Shows c' ws ∧ List.Forall₂ (Scaled a) vs ws := by
  by_cases hu : a.scale = none ∧ a.offset = none
  · have e1 : sc = none := by rcases hsc with h | h <;> rw [h, hu.1]; rfl
    have e2 : of = none := by rcases hof with h | h <;> rw [h, hu.2]; rfl
    rw [e1, e2]
    exact ⟨c, rfl, vs, hshow, scaled_plain a hu.1 hu.2 vs⟩
  have hsome : a.scale ≠ none ∨ a.offset ≠ none := by
    rcases Classical.em (a.scale = none) with h | h
    · exact Or.inr fun h' => hu ⟨h, h'⟩
    · exact Or.inl h
  have hfac : ∀ (n : Num), a.scale = some n → factor a = n.val := by intro n h; rw [factor, h]
  have hshi : ∀ (n : Num), a.offset = some n → shift a = n.val := by intro n h; rw [shift, h]
  -- the column holds the numbers of its values
  have hnum : Holds c (vs.map numberOf) ∧ (∀ v ∈ vs, v = .notFinite ∨ ∃ x, numberOf v = some x) := by
    cases c with
    | ints t ws =>
      simp only [Shows] at hshow
      subst hshow
      refine ⟨by simp only [Holds, List.map_map]; rfl, ?_⟩
      intro v hv
      obtain ⟨w, _, rfl⟩ := List.mem_map.1 hv
      exact Or.inr ⟨_, rfl⟩
    | floats w ws =>
      simp only [Shows] at hshow
      subst hshow
      constructor
      · simp only [Holds, List.map_map]
        conv_rhs => rw [← List.map_id ws]
        apply List.map_congr_left
        intro v _
        cases v <;> rfl
      · intro v hv
        obtain ⟨w, _, rfl⟩ := List.mem_map.1 hv
        cases w
        · exact Or.inl rfl
        · exact Or.inr ⟨_, rfl⟩
    | bytes ws => cases hex <;> simp [Fits] at hfit <;> rename_i hk _ _ _ _ _ _ <;> rcases hk with ⟨rfl, _⟩ | ⟨rfl, _⟩ <;> simp at hfit
    | bools ws => cases hex <;> simp [Fits] at hfit <;> rename_i hk _ _ _ _ _ _ <;> rcases hk with ⟨rfl, _⟩ | ⟨rfl, _⟩ <;> simp at hfit
    | texts ws => cases hex <;> simp [Fits] at hfit <;> rename_i hk _ _ _ _ _ _ <;> rcases hk with ⟨rfl, _⟩ | ⟨rfl, _⟩ <;> simp at hfit
  obtain ⟨hholds, hnot⟩ := hnum
  have hmem : ∀ x, some x ∈ vs.map numberOf → ∃ v ∈ vs, Amount v x := by
    intro x hx
    obtain ⟨v, hv, he⟩ := List.mem_map.1 hx
    exact ⟨v, hv, numberOf_amount.1 he⟩
  -- first step
  have hok1 : ∀ n, a.scale = some n → OkFor (· * ·) n (vs.map numberOf) c ∧ Rep double n.val := by
    intro n hn
    have hf := hfac n hn
    cases hex with
    | single h1 h2 h3 =>
      obtain ⟨ws, rfl⟩ := hfit
      rw [hf] at h1
      refine ⟨⟨h1, fun x hx => ?_⟩, rep_double h1⟩
      have := (h3 x (hmem x hx)).1
      rwa [hf] at this
    | double h1 h2 h3 =>
      obtain ⟨ws, rfl⟩ := hfit
      rw [hf] at h1
      refine ⟨⟨h1, fun x hx => ?_⟩, h1⟩
      have := (h3 x (hmem x hx)).1
      rwa [hf] at this
    | @int o k m t hk hm h1 h2 h3 h4 h5 =>
      rw [hf] at h1
      refine ⟨?_, h1⟩
      obtain ⟨ws, rfl⟩ : ∃ ws, c = .ints t ws := by
        rcases hk with ⟨rfl, rfl⟩ | ⟨rfl, rfl⟩ <;> exact hfit
      refine ⟨?_, h1, ?_, ?_⟩
      · rcases hk with ⟨rfl, rfl⟩ | ⟨rfl, rfl⟩ <;> simp only <;> omega
      · intro x hx
        have := h3 x (hmem x hx)
        rw [ExactIn, hf] at this
        exact ⟨this.1, this.2.1⟩
      · intro i hi
        have := h4 i (by rw [hn, hi])
        refine ⟨this.1, fun x hx => ?_⟩
        have h6 := this.2 x (hmem x hx)
        rwa [hf] at h6
  obtain ⟨c1, e1, hh1, hb1⟩ := apply_step R R' (· * ·) (· * ·) (by intro a b; push_cast; rfl) c a.scale sc hsc _ hholds hok1
    (by intro n hn hz; exact absurd ((hfac n hn).trans hz) h0)
  have hfun : (fun x : ℚ => match a.scale with | some n => x * n.val | none => x) = fun x => x * factor a := by
    funext x
    unfold factor
    cases a.scale <;> simp
  rw [hfun] at hh1
  have hmem2 : ∀ y, some y ∈ (vs.map numberOf).map (Option.map (fun x => x * factor a)) → ∃ x, (∃ v ∈ vs, Amount v x) ∧ y = x * factor a := by
    intro y hy
    obtain ⟨o, ho, he⟩ := List.mem_map.1 hy
    cases o with
    | none => cases he
    | some x =>
      simp only [Option.map_some, Option.some.injEq] at he
      exact ⟨x, hmem x ho, he.symm⟩
  have hok2 : ∀ n, a.offset = some n → OkFor (· + ·) n ((vs.map numberOf).map (Option.map (fun x => x * factor a))) c1 ∧ Rep double n.val := by
    intro n hn
    have hf := hshi n hn
    cases hex with
    | single h1 h2 h3 =>
      obtain ⟨ws, rfl⟩ := hfit
      rw [hf] at h2
      refine ⟨?_, rep_double h2⟩
      cases c1 <;> simp only [Becomes, if_true] at hb1
      subst hb1
      refine ⟨h2, fun y hy => ?_⟩
      obtain ⟨x, hx, rfl⟩ := hmem2 y hy
      have := (h3 x hx).2
      rwa [hf] at this
    | double h1 h2 h3 =>
      obtain ⟨ws, rfl⟩ := hfit
      rw [hf] at h2
      refine ⟨?_, h2⟩
      cases c1 <;> simp only [Becomes] at hb1
      rw [if_neg (by decide)] at hb1
      subst hb1
      refine ⟨h2, fun y hy => ?_⟩
      obtain ⟨x, hx, rfl⟩ := hmem2 y hy
      have := (h3 x hx).2
      rwa [hf] at this
    | @int o k m t hk hm h1 h2 h3 h4 h5 =>
      rw [hf] at h2
      refine ⟨?_, h2⟩
      obtain ⟨ws, rfl⟩ : ∃ ws, c = .ints t ws := by
        rcases hk with ⟨rfl, rfl⟩ | ⟨rfl, rfl⟩ <;> exact hfit
      cases c1 <;> simp only [Becomes] at hb1
      · subst hb1
        refine ⟨?_, h2, ?_, ?_⟩
        · rcases hk with ⟨rfl, rfl⟩ | ⟨rfl, rfl⟩ <;> simp only <;> omega
        · intro y hy
          obtain ⟨x, hx, rfl⟩ := hmem2 y hy
          have := (h3 x hx).2
          rw [ExactIn, hf] at this
          exact this
        · intro i hi
          have := h5 i (by rw [hn, hi])
          refine ⟨this.1, fun y hy => ?_⟩
          obtain ⟨x, hx, rfl⟩ := hmem2 y hy
          have h6 := this.2 x hx
          rwa [hf] at h6
      · subst hb1
        refine ⟨h2, fun y hy => ?_⟩
        obtain ⟨x, hx, rfl⟩ := hmem2 y hy
        have := (h3 x hx).2.2
        rwa [hf] at this
  obtain ⟨c2, e2, hh2, hb2⟩ := apply_step R R' (· + ·) (· + ·) (by intro a b; push_cast; rfl) c1 a.offset of hof _ hh1 hok2
    (by intro n _ _ x; exact add_zero x)
  have hfun2 : (fun x : ℚ => match a.offset with | some n => x + n.val | none => x) = fun x => x + shift a := by
    funext x
    unfold shift
    cases a.offset <;> simp
  rw [hfun2] at hh2
  refine ⟨c2, by rw [scaleCol, e1]; exact e2, ?_⟩
  have hlast : (vs.map numberOf).map (fun o => (o.map (fun x => x * factor a)).map (fun x => x + shift a)) =
      ((vs.map numberOf).map (Option.map (fun x => x * factor a))).map (Option.map (fun x => x + shift a)) := by
    rw [List.map_map (f := Option.map _)]; rfl
  rw [← hlast, List.map_map] at hh2
  clear hlast hb2 e1 e2 hh1 hb1 hok1 hok2 hmem2 hmem hholds hshow hfit hex
  cases c2 with
  | ints t ws =>
    refine ⟨_, rfl, ?_⟩
    simp only [Holds] at hh2
    induction vs generalizing ws with
    | nil =>
      cases ws with
      | nil => exact .nil
      | cons => cases hh2
    | cons v vs ih =>
      cases ws with
      | nil => cases hh2
      | cons w ws =>
        simp only [List.map_cons, List.cons.injEq, Function.comp_apply] at hh2
        refine .cons ?_ (ih (fun v hv => hnot v (List.mem_cons_of_mem _ hv)) ws hh2.2)
        cases hv : numberOf v with
        | none => rw [hv] at hh2; cases hh2.1
        | some x =>
          rw [hv] at hh2
          simp only [Option.map_some, Option.some.injEq] at hh2
          refine .number hsome (numberOf_amount.1 hv) ?_
          rw [hh2.1]
          exact .int
  | floats f ws =>
    refine ⟨_, rfl, ?_⟩
    simp only [Holds] at hh2
    induction vs generalizing ws with
    | nil =>
      cases ws with
      | nil => exact .nil
      | cons => cases hh2
    | cons v vs ih =>
      cases ws with
      | nil => cases hh2
      | cons w ws =>
        simp only [List.map_cons, List.cons.injEq, Function.comp_apply] at hh2
        refine .cons ?_ (ih (fun v hv => hnot v (List.mem_cons_of_mem _ hv)) ws hh2.2)
        rcases hnot v (by simp) with rfl | ⟨x, hx⟩
        · simp only [numberOf, Option.map_none] at hh2
          rw [← hh2.1]
          exact .notFinite
        · rw [hx] at hh2
          simp only [Option.map_some] at hh2
          rw [← hh2.1]
          exact .number hsome (numberOf_amount.1 hx) .real
  | bytes ws => exact hh2.elim
  | bools ws => exact hh2.elim
  | texts ws => exact hh2.elim

theorem mapM_forall {α β : Type} (f : α → Except PyErr β) (l : List α) (P : α → β → Prop)
    (h : ∀ a ∈ l, ∃ b, f a = .ok b ∧ P a b) : ∃ out, l.mapM f = .ok out ∧ List.Forall₂ P l out := by
  induction l with
  | nil => exact ⟨[], rfl, .nil⟩
  | cons a as ih =>
    obtain ⟨b, h1, h2⟩ := h a (by simp)
    obtain ⟨out, h3, h4⟩ := ih (fun x hx => h x (by simp [hx]))
    exact ⟨b :: out, by rw [List.mapM_cons, h1, h3]; rfl, .cons h2 h4⟩

/-- scaling, with the records pdr takes the table to have -/
theorem read_scaled (src : Source) (hv : ReadsVax src.vax32) (b : Block) (start R L : Nat) (first : Col) (rest : List Format.Spec.Entry)
    (h : Placed b first rest) (hsize : recordSize b = some L) (hL : 0 < L) (hR : b.rows.getD 1 = R) (hfile : start + R * L ≤ src.file.length) (val : Nat → Nat → Value)
    (henc : ∀ (k : Nat) s, (slots (b.rowPrefix.getD 0) (.col first :: rest))[k]? = some s → ∀ r < R,
      Encodes src.cp500 s.attrs.dataType s.size (bytesAt src.file (start + r * L + s.off.toNat) s.size) (val r k))
    (hscale : ∀ (k : Nat) s, (slots (b.rowPrefix.getD 0) (.col first :: rest))[k]? = some s →
      s.attrs.scale = none ∧ s.attrs.offset = none ∨
      s.attrs.dataType ≠ c!"BOOLEAN" ∧ Native s.attrs.dataType ∧ factor s.attrs ≠ 0 ∧ ∃ d, Means (underscored s.attrs.dataType) s.size d ∧
        ExactFor s.attrs (fun x => ∃ r < R, Amount (val r k) x) d) :
    ∃ out, readTable src b start = .ok (some out) ∧
      out.map Prod.fst = columnNames (b.rowPrefix.getD 0) (.col first :: rest) ∧
      ∀ (k : Nat) q s, out[k]? = some q → (slots (b.rowPrefix.getD 0) (.col first :: rest))[k]? = some s →
        ∃ ws, Shows q.2 ws ∧ List.Forall₂ (Scaled s.attrs) ((List.range R).map (fun r => val r k)) ws := by
  obtain ⟨cols, sc, of, hlen, hshow, hfits, hsc, hof, -, hread⟩ := read_unscaled src hv b start R L first rest h
    hsize hL hR hfile val henc
  have hNlen : (columnNames (b.rowPrefix.getD 0) (.col first :: rest)).length =
      (slots (b.rowPrefix.getD 0) (.col first :: rest)).length := by
    rw [columnNames, reindexNames_length, List.length_map]
  generalize hS : slots (b.rowPrefix.getD 0) (.col first :: rest) = S at *
  generalize columnNames (b.rowPrefix.getD 0) (.col first :: rest) = N at *
  have hsl : sc.length = S.length := by rcases hsc with rfl | rfl <;> simp
  have hol : of.length = S.length := by rcases hof with rfl | rfl <;> simp
  have hat : ∀ (k : Nat) s n, S[k]? = some s → sc[k]? = some n →
      n = s.attrs.scale ∨ n = s.attrs.scale.map (fun n => .float (src.R.fl n.val)) := by
    intro k s n hs hn
    rcases hsc with rfl | rfl
    · rw [List.getElem?_map, hs] at hn
      exact Or.inl (Option.some.inj hn).symm
    · rw [List.map_map, List.getElem?_map, hs] at hn
      exact Or.inr (Option.some.inj hn).symm
  have hat' : ∀ (k : Nat) s n, S[k]? = some s → of[k]? = some n →
      n = s.attrs.offset ∨ n = s.attrs.offset.map (fun n => .float (src.R.fl n.val)) := by
    intro k s n hs hn
    rcases hof with rfl | rfl
    · rw [List.getElem?_map, hs] at hn
      exact Or.inl (Option.some.inj hn).symm
    · rw [List.map_map, List.getElem?_map, hs] at hn
      exact Or.inr (Option.some.inj hn).symm
  -- all with their numbers
  have hz : ∀ q ∈ N.zip (cols.zip (sc.zip of)), ∃ (k : Nat) (s : Slot), S[k]? = some s ∧ N[k]? = some q.1 ∧ cols[k]? = some q.2.1 ∧
      sc[k]? = some q.2.2.1 ∧ of[k]? = some q.2.2.2 := by
    intro q hq
    obtain ⟨k, hk⟩ := List.mem_iff_getElem?.1 hq
    rw [List.getElem?_zip_eq_some, List.getElem?_zip_eq_some, List.getElem?_zip_eq_some] at hk
    obtain ⟨h1, h2, h3, h4⟩ := hk
    have : k < S.length := by
      have := (List.getElem?_eq_some_iff.1 h1).1
      omega
    exact ⟨k, S[k], List.getElem?_eq_getElem this, h1, h2, h3, h4⟩
  have key : ∀ (k : Nat) s q, S[k]? = some s → cols[k]? = some q.2.1 → sc[k]? = some q.2.2.1 → of[k]? = some q.2.2.2 →
      ∃ p, finish src q = .ok p ∧ p.1 = q.1 ∧
        ∃ ws, Shows p.2 ws ∧ List.Forall₂ (Scaled s.attrs) ((List.range R).map (fun r => val r k)) ws := by
    intro k s q hs h2 h3 h4
    have hsh := hshow k _ h2
    rcases hscale k s hs with ⟨n1, n2⟩ | ⟨hb, hnat, h0, d, hd, hex⟩
    · have e1 : q.2.2.1 = none := by
        rcases hat k s _ hs h3 with h | h <;> rw [h, n1]; rfl
      have e2 : q.2.2.2 = none := by
        rcases hat' k s _ hs h4 with h | h <;> rw [h, n2]; rfl
      refine ⟨(q.1, q.2.1), ?_, rfl, _, hsh, scaled_plain _ n1 n2 _⟩
      unfold finish
      rw [e1, e2]
      rfl
    · have hex' : ExactFor s.attrs (fun x => ∃ v ∈ (List.range R).map (fun r => val r k), Amount v x) d := by
        have : (fun x => ∃ v ∈ (List.range R).map (fun r => val r k), Amount v x) = fun x => ∃ r < R, Amount (val r k) x := by
          funext x
          apply propext
          constructor
          · rintro ⟨v, hv, ha⟩
            obtain ⟨r, hr, rfl⟩ := List.mem_map.1 hv
            exact ⟨r, List.mem_range.1 hr, ha⟩
          · rintro ⟨r, hr, ha⟩
            exact ⟨_, List.mem_map.2 ⟨r, List.mem_range.2 hr, rfl⟩, ha⟩
        rw [this]
        exact hex
      obtain ⟨c', e, ws, h5, h6⟩ := scale_exact src.R src.R' s.attrs _ _ (hat k s _ hs h3) (hat' k s _ hs h4) d _ _
        (hfits k _ s d h2 hs hb hnat hd) hsh h0 hex'
      refine ⟨(q.1, c'), ?_, rfl, ws, h5, h6⟩
      unfold finish
      rw [e]
      rfl
  obtain ⟨out, hm, hall⟩ := mapM_forall (finish src) (N.zip (cols.zip (sc.zip of))) (fun q p => finish src q = .ok p) (by
    intro q hq
    obtain ⟨k, s, h0, _, h2, h3, h4⟩ := hz q hq
    obtain ⟨p, hp, _⟩ := key k s q h0 h2 h3 h4
    exact ⟨p, hp, hp⟩)
  rw [hm] at hread
  have hfst : ∀ q p, finish src q = .ok p → p.1 = q.1 := by
    intro q p hp
    unfold finish at hp
    cases hx : scaleCol src.R src.R' q.2.1 q.2.2.1 q.2.2.2 with
    | error e => rw [hx] at hp; cases hp
    | ok c => rw [hx] at hp; cases hp; rfl
  refine ⟨out, hread, ?_, ?_⟩
  · have h1 : out.map Prod.fst = (N.zip (cols.zip (sc.zip of))).map Prod.fst := by
      clear hm hread hz key
      generalize N.zip (cols.zip (sc.zip of)) = Z at hall
      induction hall with
      | nil => rfl
      | cons hp _ ih => rw [List.map_cons, List.map_cons, ih, hfst _ _ hp]
    rw [h1, List.map_fst_zip]
    simp
    omega
  · intro k p s hp hs
    have hq : ∃ q, (N.zip (cols.zip (sc.zip of)))[k]? = some q ∧ finish src q = .ok p := by
      have hl := hall.length_eq
      have hk := (List.getElem?_eq_some_iff.1 hp)
      obtain ⟨hk, rfl⟩ := hk
      refine ⟨(N.zip (cols.zip (sc.zip of)))[k], List.getElem?_eq_getElem _, ?_⟩
      exact List.Forall₂.get hall (by omega) hk
    obtain ⟨q, hq, hfin⟩ := hq
    rw [List.getElem?_zip_eq_some, List.getElem?_zip_eq_some, List.getElem?_zip_eq_some] at hq
    obtain ⟨h1, h2, h3, h4⟩ := hq
    obtain ⟨p', hp', _, hres⟩ := key k s q hs h2 h3 h4
    rw [hfin] at hp'
    cases hp'
    exact hres

/-- **C63.** Columns with SCALING_FACTOR and OFFSET hold stored value times factor plus offset, as long as the numbers
involved can be represented; values that are not finite stay so, and columns without both are left alone. (Columns
of IBM and VAX reals: only without both.) -/
theorem C63_scaling (src : Source) (hv : ReadsVax src.vax32) (b : Block) (start R L : Nat) (first : Col) (rest : List Format.Spec.Entry)
    (h : Binary b first rest L) (hR : b.rows.getD 1 = R) (hfile : start + R * L ≤ src.file.length) (val : Nat → Nat → Value)
    (henc : ∀ (k : Nat) s, (slots (b.rowPrefix.getD 0) (.col first :: rest))[k]? = some s → ∀ r < R,
      Encodes src.cp500 s.attrs.dataType s.size (bytesAt src.file (start + r * L + s.off.toNat) s.size) (val r k))
    (hscale : ∀ (k : Nat) s, (slots (b.rowPrefix.getD 0) (.col first :: rest))[k]? = some s →
      s.attrs.scale = none ∧ s.attrs.offset = none ∨
      s.attrs.dataType ≠ c!"BOOLEAN" ∧ Native s.attrs.dataType ∧ factor s.attrs ≠ 0 ∧ ∃ d, Means (underscored s.attrs.dataType) s.size d ∧
        ExactFor s.attrs (fun x => ∃ r < R, Amount (val r k) x) d) :
    ∃ out, readTable src b start = .ok (some out) ∧
      out.map Prod.fst = columnNames (b.rowPrefix.getD 0) (.col first :: rest) ∧
      ∀ (k : Nat) q s, out[k]? = some q → (slots (b.rowPrefix.getD 0) (.col first :: rest))[k]? = some s →
        ∃ ws, Shows q.2 ws ∧ List.Forall₂ (Scaled s.attrs) ((List.range R).map (fun r => val r k)) ws :=
  read_scaled src hv b start R L first rest h.toPlaced (recordSize_binary b first rest L h) h.size.1 hR hfile val henc hscale

/-- the hypotheses of C63 can be met: a column of 16-bit integers with factor 2 and offset 100 that holds 3 and -4 -/
example : ExactFor { dataType := c!"MSB_INTEGER", scale := some (.int 2), offset := some (.int 100) }
    (fun x => x = 3 ∨ x = -4) ⟨some .big, .int, 2⟩ := by
  have hr : ∀ n : Int, |n| < 2 ^ 53 → Rep double n := by
    intro n hn
    exact ⟨n, 0, hn, by decide, by decide, by simp⟩
  have h2 : factor { dataType := c!"MSB_INTEGER", scale := some (.int 2), offset := some (.int 100) } = 2 := by
    simp [factor, Num.val]
  have h3 : shift { dataType := c!"MSB_INTEGER", scale := some (.int 2), offset := some (.int 100) } = 100 := by
    simp [shift, Num.val]
  refine .int (t := ⟨true, 16⟩) (Or.inl ⟨rfl, rfl⟩) (by decide) ?_ ?_ ?_ ?_ ?_
  · rw [h2]; exact_mod_cast hr 2 (by decide)
  · rw [h3]; exact_mod_cast hr 100 (by decide)
  · rintro x (rfl | rfl)
    · rw [ExactIn, h2, h3]
      refine ⟨by exact_mod_cast hr 3 (by decide), ?_, ?_⟩
      · norm_num; exact_mod_cast hr 6 (by decide)
      · norm_num; exact_mod_cast hr 106 (by decide)
    · rw [ExactIn, h2, h3]
      refine ⟨by exact_mod_cast hr (-4) (by decide), ?_, ?_⟩
      · norm_num; exact_mod_cast hr (-8) (by decide)
      · norm_num; exact_mod_cast hr 92 (by decide)
  · intro i hi
    cases hi
    rw [h2]
    refine ⟨by norm_num [InRange, lo, hi], ?_⟩
    rintro x (rfl | rfl) <;> norm_num [InRange, lo, hi]
  · intro i hi
    cases hi
    rw [h2, h3]
    refine ⟨by norm_num [InRange, lo, hi], ?_⟩
    rintro x (rfl | rfl) <;> norm_num [InRange, lo, hi]

end Verif.Table
