import Verif.Spec.Scaling
import Verif.Props.Pds4Scale
import Verif.Props.Ibm

/-!
C14 and the limits C56 and C57: scaled PDS3 arrays.
-/

namespace Verif.Scaling
open Verif.Py Verif.Float Verif.NumPy Spec

theorem mapM_congr_of_mem {α β : Type} (f g : α → Except PyErr β) (l : List α) (h : ∀ a ∈ l, f a = g a) :
    l.mapM f = l.mapM g := by
  induction l with
  | nil => rfl
  | cons a as ih =>
    rw [List.mapM_cons, List.mapM_cons, h a (by simp), ih (fun b hb => h b (by simp [hb]))]

theorem mapM_ok {α β : Type} (f : α → Except PyErr β) (g : α → β) (l : List α) (h : ∀ a ∈ l, f a = .ok (g a)) :
    l.mapM f = .ok (l.map g) := by
  induction l with
  | nil => rfl
  | cons a as ih =>
    rw [List.mapM_cons, h a (by simp), ih (fun b hb => h b (by simp [hb]))]
    rfl

/-- the element of a scaled array -/
def scaledElem (s o : Int) (e : IElem) : IElem := (if e.2 then e.1 else e.1 * s + o, e.2)

theorem mulAdd_ints (E : Env) (hE : Promotes E) (t : IntType) (ht : 1 ≤ t.bits) (p : List (List IElem)) (s o : Int)
    (hs : Fits t s) (ho : Fits t o)
    (hfit : ∀ l ∈ p, ∀ e ∈ l, e.2 = false → Fits t (e.1 * s) ∧ Fits t (e.1 * s + o)) :
    ∃ t2, mulAdd E (.ints t p) (.int s) (.int o) = .ok (.ints t2 (p.map (·.map (scaledElem s o)))) := by
  obtain ⟨t1, h1, hlo1, hhi1, hb1⟩ := hE t s hs.1 hs.2
  obtain ⟨t2, h2, hlo2, hhi2, hb2⟩ := hE t1 o (le_trans hlo1 ho.1) (le_trans ho.2 hhi1)
  refine ⟨t2, ?_⟩
  unfold mulAdd arith
  simp only [h1, bind, Except.bind, h2, Except.ok.injEq, Arr.ints.injEq, true_and, List.map_map]
  apply List.map_congr_left
  intro l hl
  simp only [Function.comp_apply, List.map_map]
  apply List.map_congr_left
  intro e he
  obtain ⟨x, m⟩ := e
  cases m
  · obtain ⟨f1, f2⟩ := hfit l hl _ he rfl
    simp only [Function.comp_apply, Bool.false_eq_true, if_false, scaledElem, Prod.mk.injEq, and_true] at f1 f2 ⊢
    rw [wrap_id t1 (hb1 ht) _ (le_trans hlo1 f1.1) (le_trans f1.2 hhi1),
      wrap_id t2 (hb2 (hb1 ht)) _ (le_trans hlo2 (le_trans hlo1 f2.1)) (le_trans f2.2 (le_trans hhi1 hhi2))]
  · simp [scaledElem]

/-- **C14 (integers).** An integer array, integer scaling factor and offset that its dtype holds, and results
(value times factor, and that plus offset) that it holds: every element that is not masked becomes exactly
value times factor plus offset. -/
theorem C14_integers (E : Env) (hE : Promotes E) (t : IntType) (ht : 1 ≤ t.bits) (p : List (List IElem)) (s o : Int)
    (hs : Fits t s) (ho : Fits t o)
    (hfit : ∀ l ∈ p, ∀ e ∈ l, e.2 = false → Fits t (e.1 * s) ∧ Fits t (e.1 * s + o)) (ft : Option FloatType) :
    scaleBy E (.ints t p) (.one (.int s)) (.one (.int o)) false ft =
      .ok (p.map (·.map fun e => (some (if e.2 then (e.1 : ℚ) else (e.1 : ℚ) * s + o), e.2))) := by
  have hval : Arr.values (.ints t (p.map (·.map (scaledElem s o)))) =
      p.map (·.map fun e => (some (if e.2 then (e.1 : ℚ) else (e.1 : ℚ) * s + o), e.2)) := by
    simp only [Arr.values, List.map_map]
    apply List.map_congr_left
    intro l _
    simp only [Function.comp_apply, List.map_map]
    apply List.map_congr_left
    intro e _
    simp only [Function.comp_apply, scaledElem]
    cases e.2 <;> simp
  unfold scaleBy
  split
  · rename_i hc
    simp only [Bool.and_eq_true, Factor.isNum, Num.val] at hc
    rw [← hval]
    have hs1 : s = 1 := by exact_mod_cast of_decide_eq_true hc.1
    have ho1 : o = 0 := by exact_mod_cast of_decide_eq_true hc.2
    subst hs1; subst ho1
    have : p.map (·.map (scaledElem 1 0)) = p := by
      conv_rhs => rw [← List.map_id p]
      apply List.map_congr_left
      intro l _
      conv_rhs => rw [show id l = l from rfl, ← List.map_id l]
      apply List.map_congr_left
      intro e _
      simp [scaledElem]
    rw [this]
  · have hcast : castingToFloat (.ints t p) (.one (.int s)) (.one (.int o)) = false := rfl
    simp only [Bool.false_and, Bool.false_eq_true, if_false, hcast]
    obtain ⟨t2, h⟩ := mulAdd_ints E hE t ht p s o hs ho hfit
    cases ft <;>
    · unfold overflowWrap copyScale
      simp only [h, Except.map]
      rw [← hval]
      rfl

/-- NumPy's rule for arrays without a mask is such a rule. -/
theorem nep50_promotes (R : Rounding double) (R' : Rounding single) : Promotes ⟨R, R', nep50, false⟩ := by
  intro t n h1 h2
  exact ⟨t, by simp only [nep50]; rw [if_pos ⟨h1, h2⟩], le_refl _, le_refl _, id⟩

/-! ### floats -/

theorem fop_ok {F : Format} (R : Rounding F) (op : ℚ → ℚ → ℚ) (s : ℚ) (l : List FElem)
    (h : ∀ e ∈ l, ∀ x, e = (some x, false) → |op x s| < limit F) :
    fop R op s l = .ok (l.map fun e => (if e.2 then e.1 else e.1.map (fun x => R.fl (op x s)), e.2)) := by
  induction l with
  | nil => rfl
  | cons e es ih =>
    obtain ⟨v, m⟩ := e
    unfold fop
    rw [ih (fun e he => h e (by simp [he]))]
    simp only [bind, Except.bind]
    cases m
    · cases v with
      | none => rfl
      | some x =>
        simp only [Bool.false_eq_true, if_false]
        rw [if_pos (h _ (by simp) x rfl)]
        rfl
    · rfl

theorem lt_limit {F : Format} {x : ℚ} (h : Rep F x) : |x| < limit F := by
  obtain ⟨k, e, hk, _, he, rfl⟩ := h
  have h1 : (0 : ℚ) < 2 ^ F.emax := zpow_pos (by norm_num) _
  have h2 : (0 : ℚ) < 2 ^ e := zpow_pos (by norm_num) _
  have h3 : (2 : ℚ) ^ e ≤ 2 ^ F.emax := zpow_le_zpow_right₀ (by norm_num) he
  have hk' : ((|k| : Int) : ℚ) ≤ 2 ^ F.p - 1 := by
    have : |k| ≤ 2 ^ F.p - 1 := by omega
    exact_mod_cast this
  rw [Int.cast_abs] at hk'
  have h4 : (1 : ℚ) ≤ 2 ^ F.p := one_le_pow₀ (by norm_num)
  rw [abs_mul, abs_of_pos h2]
  calc |(k : ℚ)| * 2 ^ e ≤ (2 ^ F.p - 1) * 2 ^ e := mul_le_mul_of_nonneg_right hk' (le_of_lt h2)
    _ ≤ (2 ^ F.p - 1) * 2 ^ F.emax := mul_le_mul_of_nonneg_left h3 (by linarith)
    _ < (2 ^ F.p - 1 / 2) * 2 ^ F.emax := mul_lt_mul_of_pos_right (by linarith) h1

/-- an operation without rounding -/
def fexact (op : ℚ → ℚ → ℚ) (s : ℚ) (e : FElem) : FElem := (if e.2 then e.1 else e.1.map (fun x => op x s), e.2)

theorem fop_exact {F : Format} (R : Rounding F) (op : ℚ → ℚ → ℚ) (s : ℚ) (l : List FElem)
    (h : ∀ e ∈ l, ∀ x, e = (some x, false) → Rep F (op x s)) : fop R op s l = .ok (l.map (fexact op s)) := by
  rw [fop_ok R op s l (fun e he x hx => lt_limit (h e he x hx))]
  congr 1
  apply List.map_congr_left
  rintro ⟨v, m⟩ he
  cases m
  · cases v with
    | none => rfl
    | some x =>
      simp only [Bool.false_eq_true, if_false, Option.map_some, fexact, Prod.mk.injEq, and_true, Option.some.injEq]
      exact R.exact _ (h _ he x rfl)
  · rfl

/-- exact scaling of an element -/
def fscaled (s o : ℚ) (e : FElem) : FElem := (if e.2 then e.1 else e.1.map (fun x => x * s + o), e.2)

theorem fexact_fexact (s o : ℚ) (e : FElem) : fexact (· + ·) o (fexact (· * ·) s e) = fscaled s o e := by
  obtain ⟨v, m⟩ := e
  cases m <;> cases v <;> rfl

theorem planes_exact {F : Format} (R : Rounding F) (op : ℚ → ℚ → ℚ) (s : ℚ) (p : List (List FElem))
    (h : ∀ l ∈ p, ∀ e ∈ l, ∀ x, e = (some x, false) → Rep F (op x s)) :
    (p.mapM fun l => fop R op s l) = .ok (p.map (·.map (fexact op s))) :=
  mapM_ok _ _ p fun l hl => fop_exact R op s l (h l hl)

theorem second_step {F : Format} (s o : ℚ) (p : List (List FElem))
    (h : ∀ l ∈ p, ∀ e ∈ l, ∀ x, e = (some x, false) → Rep F (x * s) ∧ Rep F (x * s + o)) :
    ∀ l ∈ p.map (·.map (fexact (· * ·) s)), ∀ e ∈ l, ∀ x, e = (some x, false) → Rep F (x + o) := by
  intro l hl e he x hx
  obtain ⟨l', hl', rfl⟩ := List.mem_map.1 hl
  obtain ⟨⟨v, m⟩, he', rfl⟩ := List.mem_map.1 he
  simp only [fexact, Prod.mk.injEq] at hx
  obtain ⟨hx, rfl⟩ := hx
  cases v with
  | none => simp at hx
  | some y =>
    simp only [Bool.false_eq_true, if_false, Option.map_some, Option.some.injEq] at hx
    rw [← hx]
    exact (h l' hl' _ he' y rfl).2

theorem arith_f64 (E : Env) (op : ℚ → ℚ → ℚ) (iop : Int → Int → Int) (p : List (List FElem)) (n : Num) :
    arith E op iop (.f64 p) n = ((p.mapM fun l => fop E.R op (E.R.fl n.val) l) >>= fun q => .ok (.f64 q)) := by
  cases n <;> rfl

theorem arith_f32 (E : Env) (hw : E.wide = false) (op : ℚ → ℚ → ℚ) (iop : Int → Int → Int) (p : List (List FElem)) (n : Num) :
    arith E op iop (.f32 p) n = ((p.mapM fun l => fop E.R' op (E.R'.fl n.val) l) >>= fun q => .ok (.f32 q)) := by
  cases n <;> simp only [arith, hw, Bool.false_eq_true, if_false]

theorem arith_f32_wide (E : Env) (hw : E.wide = true) (op : ℚ → ℚ → ℚ) (iop : Int → Int → Int) (p : List (List FElem)) (n : Num) :
    arith E op iop (.f32 p) n = arith E op iop (.f64 p) n := by
  cases n <;> simp only [arith, hw, if_true]

theorem rep_double {x : ℚ} (h : Rep single x) : Rep double x := by
  obtain ⟨k, e, hk, h1, h2, rfl⟩ := h
  refine ⟨k, e, lt_trans hk ?_, ?_, ?_, rfl⟩
  · norm_num [single, double]
  · simp only [single, double] at *; omega
  · simp only [single, double] at *; omega

theorem mulAdd_f64 (E : Env) (p : List (List FElem)) (s o : Num) (hs : Rep double s.val) (ho : Rep double o.val)
    (h : ∀ l ∈ p, ∀ e ∈ l, ∀ x, e = (some x, false) → Rep double (x * s.val) ∧ Rep double (x * s.val + o.val)) :
    mulAdd E (.f64 p) s o = .ok (.f64 (p.map (·.map (fscaled s.val o.val)))) := by
  unfold mulAdd
  have e1 : arith E (· * ·) (· * ·) (.f64 p) s = .ok (.f64 (p.map (·.map (fexact (· * ·) s.val)))) := by
    rw [arith_f64, E.R.exact _ hs, planes_exact E.R _ _ p (fun l hl e he x hx => (h l hl e he x hx).1)]
    rfl
  rw [e1]
  show arith E (· + ·) (· + ·) (.f64 (p.map (·.map (fexact (· * ·) s.val)))) o = _
  rw [arith_f64, E.R.exact _ ho, planes_exact E.R _ _ _ (second_step s.val o.val p h)]
  simp only [bind, Except.bind, List.map_map]
  congr 2
  apply List.map_congr_left
  intro l _
  simp only [Function.comp_apply, List.map_map]
  apply List.map_congr_left
  intro e _
  exact fexact_fexact _ _ e

theorem mulAdd_f32 (E : Env) (p : List (List FElem)) (s o : Num) (hs : Rep single s.val) (ho : Rep single o.val)
    (h : ∀ l ∈ p, ∀ e ∈ l, ∀ x, e = (some x, false) → Rep single (x * s.val) ∧ Rep single (x * s.val + o.val)) :
    (mulAdd E (.f32 p) s o).map Arr.values = .ok (p.map (·.map (fscaled s.val o.val))) := by
  cases hw : E.wide
  · unfold mulAdd
    have e1 : arith E (· * ·) (· * ·) (.f32 p) s = .ok (.f32 (p.map (·.map (fexact (· * ·) s.val)))) := by
      rw [arith_f32 E hw, E.R'.exact _ hs, planes_exact E.R' _ _ p (fun l hl e he x hx => (h l hl e he x hx).1)]
      rfl
    rw [e1]
    show Except.map Arr.values (arith E (· + ·) (· + ·) (.f32 (p.map (·.map (fexact (· * ·) s.val)))) o) = _
    rw [arith_f32 E hw, E.R'.exact _ ho, planes_exact E.R' _ _ _ (second_step s.val o.val p h)]
    simp only [bind, Except.bind, List.map_map, Except.map, Arr.values]
    congr 2
    funext l
    simp only [Function.comp_apply, List.map_map]
    apply List.map_congr_left
    intro e _
    exact fexact_fexact _ _ e
  · have : mulAdd E (.f32 p) s o = mulAdd E (.f64 p) s o := by
      unfold mulAdd
      rw [arith_f32_wide E hw]
    rw [this, mulAdd_f64 E p s o (rep_double hs) (rep_double ho)
      (fun l hl e he x hx => ⟨rep_double (h l hl e he x hx).1, rep_double (h l hl e he x hx).2⟩)]
    rfl

theorem fscaled_one_zero (p : List (List FElem)) : p.map (·.map (fscaled 1 0)) = p := by
  conv_rhs => rw [← List.map_id p]
  apply List.map_congr_left
  intro l _
  conv_rhs => rw [show id l = l from rfl, ← List.map_id l]
  apply List.map_congr_left
  rintro ⟨v, m⟩ _
  cases m <;> cases v <;> simp [fscaled]

/-- **C14 (floats).** An array of floats: every finite element that is not masked becomes exactly value times
factor plus offset if its dtype holds the factor, the offset and the two results; elements that are masked or
not finite stay as they are. -/
theorem C14_floats (E : Env) (s o : Num) (p : List (List FElem)) (ft : Option FloatType) :
    (Rep double s.val → Rep double o.val →
      (∀ l ∈ p, ∀ e ∈ l, ∀ x, e = (some x, false) → Rep double (x * s.val) ∧ Rep double (x * s.val + o.val)) →
      scaleBy E (.f64 p) (.one s) (.one o) false ft = .ok (p.map (·.map (fscaled s.val o.val)))) ∧
    (Rep single s.val → Rep single o.val →
      (∀ l ∈ p, ∀ e ∈ l, ∀ x, e = (some x, false) → Rep single (x * s.val) ∧ Rep single (x * s.val + o.val)) →
      scaleBy E (.f32 p) (.one s) (.one o) false ft = .ok (p.map (·.map (fscaled s.val o.val)))) := by
  constructor
  · intro hs ho h
    unfold scaleBy
    split
    · rename_i hc
      simp only [Bool.and_eq_true, Factor.isNum, decide_eq_true_eq] at hc
      rw [hc.1, hc.2, fscaled_one_zero]; rfl
    · cases ft <;> simp only [castingToFloat, Bool.false_and, Bool.false_eq_true, if_false, overflowWrap, copyScale,
        mulAdd_f64 E p s o hs ho h, Except.map, Arr.values]
  · intro hs ho h
    unfold scaleBy
    split
    · rename_i hc
      simp only [Bool.and_eq_true, Factor.isNum, decide_eq_true_eq] at hc
      rw [hc.1, hc.2, fscaled_one_zero]; rfl
    · cases ft <;> simp only [castingToFloat, Bool.false_and, Bool.false_eq_true, if_false, overflowWrap, copyScale,
        mulAdd_f32 E p s o hs ho h]

/-- the value an integer element has after scaling -/
def toScaled (s o : ℚ) (e : IElem) : FElem := (some (if e.2 then (e.1 : ℚ) else (e.1 : ℚ) * s + o), e.2)

theorem fscaled_cast (s o : ℚ) (e : IElem) : fscaled s o (some (e.1 : ℚ), e.2) = toScaled s o e := by
  obtain ⟨x, m⟩ := e
  cases m <;> rfl

theorem cast_rep {F : Format} (R : Rounding F) (p : List (List IElem)) (hx : ∀ l ∈ p, ∀ e ∈ l, Rep F (e.1 : ℚ)) :
    (p.map (·.map fun e => ((some (R.fl e.1), e.2) : FElem))) = p.map (·.map fun e => (some (e.1 : ℚ), e.2)) := by
  apply List.map_congr_left
  intro l hl
  apply List.map_congr_left
  intro e he
  rw [R.exact _ (hx l hl e he)]

theorem map_fscaled_cast (s o : ℚ) (p : List (List IElem)) :
    (p.map (·.map fun e => ((some (e.1 : ℚ), e.2) : FElem))).map (·.map (fscaled s o)) = p.map (·.map (toScaled s o)) := by
  rw [List.map_map]
  apply List.map_congr_left
  intro l _
  simp only [Function.comp_apply, List.map_map]
  apply List.map_congr_left
  intro e _
  exact fscaled_cast s o e

theorem cast_hyp {F : Format} (s o : ℚ) (p : List (List IElem))
    (h : ∀ l ∈ p, ∀ e ∈ l, e.2 = false → Rep F ((e.1 : ℚ) * s) ∧ Rep F ((e.1 : ℚ) * s + o)) :
    ∀ l ∈ p.map (·.map fun e => ((some (e.1 : ℚ), e.2) : FElem)), ∀ e ∈ l, ∀ x, e = (some x, false) →
      Rep F (x * s) ∧ Rep F (x * s + o) := by
  intro l hl e he x hx
  obtain ⟨l', hl', rfl⟩ := List.mem_map.1 hl
  obtain ⟨⟨y, m⟩, he', rfl⟩ := List.mem_map.1 he
  simp only [Prod.mk.injEq, Option.some.injEq] at hx
  obtain ⟨rfl, rfl⟩ := hx
  exact h l' hl' _ he' rfl

/-- **C14 (integers to floats).** An integer array with a factor that is not an integer becomes float64, or the
float type asked for: every element that is not masked becomes exactly value times factor plus offset if that
type holds the values, the factor, the offset and the results. -/
theorem C14_integers_to_float (E : Env) (t : IntType) (p : List (List IElem)) (s : ℚ) (o : Num) :
    (∀ ft : Option FloatType, (ft = none ∨ ft = some .f64) → Rep double s → Rep double o.val →
      (∀ l ∈ p, ∀ e ∈ l, Rep double (e.1 : ℚ)) →
      (∀ l ∈ p, ∀ e ∈ l, e.2 = false → Rep double ((e.1 : ℚ) * s) ∧ Rep double ((e.1 : ℚ) * s + o.val)) →
      scaleBy E (.ints t p) (.one (.float s)) (.one o) false ft = .ok (p.map (·.map (toScaled s o.val)))) ∧
    (Rep single s → Rep single o.val → (∀ l ∈ p, ∀ e ∈ l, Rep single (e.1 : ℚ)) →
      (∀ l ∈ p, ∀ e ∈ l, e.2 = false → Rep single ((e.1 : ℚ) * s) ∧ Rep single ((e.1 : ℚ) * s + o.val)) →
      scaleBy E (.ints t p) (.one (.float s)) (.one o) false (some .f32) = .ok (p.map (·.map (toScaled s o.val)))) := by
  have hid : s = 1 → o.val = 0 → (Arr.ints t p).values = p.map (·.map (toScaled s o.val)) := by
    intro h1 h2
    rw [h1, h2]
    apply List.map_congr_left
    intro l _
    apply List.map_congr_left
    rintro ⟨x, m⟩ _
    cases m <;> simp [toScaled]
  have hcast : castingToFloat (.ints t p) (.one (.float s)) (.one o) = true := rfl
  constructor
  · intro ft hft hs ho hx h
    unfold scaleBy
    split
    · rename_i hc
      simp only [Bool.and_eq_true, Factor.isNum, decide_eq_true_eq] at hc
      rw [hid hc.1 hc.2]
    · have h64 := mulAdd_f64 E (p.map (·.map fun e => ((some (e.1 : ℚ), e.2) : FElem))) (.float s) o hs ho (cast_hyp s o.val p h)
      rw [map_fscaled_cast] at h64
      rcases hft with rfl | rfl
      · have h1 : mulAdd E (.ints t p) (.float s) o =
            mulAdd E (.f64 (p.map (·.map fun e => ((some (e.1 : ℚ), e.2) : FElem)))) (.float s) o := by
          unfold mulAdd
          congr 1
          have hs' : E.R.fl (Num.float s).val = s := E.R.exact _ hs
          rw [arith_f64, hs', List.mapM_map]
          show ((p.mapM fun l => fop E.R (· * ·) s (l.map fun e => (some (if e.2 then (e.1 : ℚ) else E.R.fl e.1), e.2))) >>= _) = _
          congr 1
          apply mapM_congr_of_mem
          intro l hl
          simp only [Function.comp_apply]
          congr 1
          apply List.map_congr_left
          rintro ⟨x, m⟩ he
          cases m
          · simp only [Bool.false_eq_true, if_false, Prod.mk.injEq, and_true, Option.some.injEq]
            exact E.R.exact _ (hx l hl _ he)
          · rfl
        simp only [Bool.false_and, Bool.false_eq_true, if_false, overflowWrap, copyScale, h1, h64, Except.map, Arr.values]
        rfl
      · simp only [Bool.false_and, Bool.false_eq_true, if_false, hcast, asFloat, cast_rep E.R p hx, overflowWrap,
          copyScale, h64, Except.map, Arr.values]
        rfl
  · intro hs ho hx h
    unfold scaleBy
    split
    · rename_i hc
      simp only [Bool.and_eq_true, Factor.isNum, decide_eq_true_eq] at hc
      rw [hid hc.1 hc.2]
    · have h32 := mulAdd_f32 E (p.map (·.map fun e => ((some (e.1 : ℚ), e.2) : FElem))) (.float s) o hs ho (cast_hyp s o.val p h)
      rw [map_fscaled_cast] at h32
      simp only [Bool.false_and, Bool.false_eq_true, if_false, hcast, asFloat, cast_rep E.R' p hx, overflowWrap,
          copyScale, h32]
      rfl

/-! ### a factor and an offset for each plane -/

theorem flatMap_single {α β : Type} (f : α → β) (l : List α) : l.flatMap (fun a => [f a]) = l.map f := by
  induction l with
  | nil => rfl
  | cons a as ih => simp [List.flatMap_cons, ih]

theorem copyScale_planes (E : Env) (a : Arr) (P : List (List FElem)) (ss os : List Num) (hl : a.len = ss.length)
    (hl' : ss.length = os.length) (h1 : 1 < os.length) (g : Arr × Num × Num → Arr)
    (hg : ∀ q ∈ a.planes.zip (ss.zip os), mulAdd E q.1 q.2.1 q.2.2 = .ok (g q))
    (hP : ((a.planes.zip (ss.zip os)).map g).flatMap Arr.values = P) :
    copyScale E a (.many os) (.many ss) = .ok P := by
  unfold copyScale
  simp only [hl, hl', h1, and_self, if_true]
  rw [mapM_ok _ g _ hg]
  simp only [bind, Except.bind, hP]

/-- **C14 (planes).** Where the label has a list of factors and a list of offsets, each as long as the array (and
longer than one), every plane is scaled by its own factor and offset. -/
theorem C14_planes (E : Env) (p : List (List FElem)) (ss os : List Num) (hl : p.length = ss.length)
    (hl' : ss.length = os.length) (h1 : 1 < os.length) (ft : Option FloatType)
    (h : ∀ q ∈ p.zip (ss.zip os), Rep double q.2.1.val ∧ Rep double q.2.2.val ∧
      ∀ e ∈ q.1, ∀ x, e = (some x, false) → Rep double (x * q.2.1.val) ∧ Rep double (x * q.2.1.val + q.2.2.val)) :
    scaleBy E (.f64 p) (.many ss) (.many os) false ft =
      .ok ((p.zip (ss.zip os)).map fun q => q.1.map (fscaled q.2.1.val q.2.2.val)) := by
  have hm : ∀ q ∈ p.zip (ss.zip os),
      mulAdd E (.f64 [q.1]) q.2.1 q.2.2 = .ok (.f64 [q.1.map (fscaled q.2.1.val q.2.2.val)]) := by
    intro q hq
    obtain ⟨a, b, c⟩ := h q hq
    have := mulAdd_f64 E [q.1] q.2.1 q.2.2 a b (by
      intro l hl e he x hx
      rw [List.mem_singleton] at hl
      subst hl
      exact c e he x hx)
    simpa using this
  have key : copyScale E (.f64 p) (.many os) (.many ss) =
      .ok ((p.zip (ss.zip os)).map fun q => q.1.map (fscaled q.2.1.val q.2.2.val)) := by
    apply copyScale_planes E (.f64 p) _ ss os hl hl' h1
      (g := fun q => .f64 (q.1.values.map (·.map (fscaled q.2.1.val q.2.2.val))))
    · intro q hq
      rw [Arr.planes, List.zip_map_left, List.mem_map] at hq
      obtain ⟨q', hq', rfl⟩ := hq
      exact hm q' hq'
    · rw [Arr.planes, List.zip_map_left, List.map_map, List.flatMap_map]
      exact flatMap_single _ _
  unfold scaleBy
  cases ft <;> simp [Factor.isNum, castingToFloat, overflowWrap, key]

/-- **C14 (planes of integers).** The same for integer arrays and integer factors and offsets the dtype holds. -/
theorem C14_planes_integers (E : Env) (hE : Promotes E) (t : IntType) (ht : 1 ≤ t.bits) (p : List (List IElem))
    (ss os : List Int) (hl : p.length = ss.length) (hl' : ss.length = os.length) (h1 : 1 < os.length)
    (h : ∀ q ∈ p.zip (ss.zip os), Fits t q.2.1 ∧ Fits t q.2.2 ∧
      ∀ e ∈ q.1, e.2 = false → Fits t (e.1 * q.2.1) ∧ Fits t (e.1 * q.2.1 + q.2.2)) :
    scaleBy E (.ints t p) (.many (ss.map .int)) (.many (os.map .int)) false none =
      .ok ((p.zip (ss.zip os)).map fun q => q.1.map (toScaled q.2.1 q.2.2)) := by
  have hz : (Arr.ints t p).planes.zip ((ss.map Num.int).zip (os.map Num.int)) =
      (p.zip (ss.zip os)).map fun q => ((.ints t [q.1], .int q.2.1, .int q.2.2) : Arr × Num × Num) := by
    rw [Arr.planes, List.zip_map (l₁ := ss), List.zip_map]; rfl
  have hm : ∀ q ∈ p.zip (ss.zip os), ∃ t2,
      mulAdd E (.ints t [q.1]) (.int q.2.1) (.int q.2.2) = .ok (.ints t2 [q.1.map (scaledElem q.2.1 q.2.2)]) := by
    intro q hq
    obtain ⟨a, b, c⟩ := h q hq
    have := mulAdd_ints E hE t ht [q.1] q.2.1 q.2.2 a b (by
      intro l hl e he hx
      rw [List.mem_singleton] at hl
      subst hl
      exact c e he hx)
    simpa using this
  have key : copyScale E (.ints t p) (.many (os.map .int)) (.many (ss.map .int)) =
      .ok ((p.zip (ss.zip os)).map fun q => q.1.map (toScaled q.2.1 q.2.2)) := by
    apply copyScale_planes E _ _ _ _ (by simpa [Arr.len] using hl) (by simpa using hl') (by simpa using h1)
      (g := fun q => match mulAdd E q.1 q.2.1 q.2.2 with
        | .ok b => b
        | .error _ => .f64 [])
    · intro q hq
      rw [hz, List.mem_map] at hq
      obtain ⟨q', hq', rfl⟩ := hq
      obtain ⟨t2, h2⟩ := hm q' hq'
      simp only [h2]
    · rw [hz, List.map_map, List.flatMap_map, ← flatMap_single]
      apply List.flatMap_congr
      intro q hq
      obtain ⟨t2, h2⟩ := hm q hq
      simp only [Function.comp_apply, h2, Arr.values, List.map_cons, List.map_nil, List.map_map, List.cons.injEq, and_true]
      apply List.map_congr_left
      rintro ⟨x, m⟩ _
      cases m <;> simp [scaledElem, toScaled]
  unfold scaleBy
  simp [Factor.isNum, overflowWrap, key]

/-! ### the special constants -/

/-- no constant is an empty list -/
def NoEmptyConstant (block : Block) : Prop := ∀ n ∈ constantNames, block n ≠ some (.seq [])

def optOf (q : Str × Entry) : Option (Str × ℚ) :=
  match q.2 with
  | .num x => some (q.1, x.val)
  | .seq (x :: _) => some (q.1, x.val)
  | _ => none

theorem explicit_ok (block : Block) (h : NoEmptyConstant block) :
    ∃ L, explicitSpecials block = .ok L ∧ ∀ n x, (n, x) ∈ L ↔ n ∈ constantNames ∧ Declares block n x := by
  refine ⟨(constantNames.filterMap fun n => (block n).map (n, ·)).filterMap optOf, ?_, ?_⟩
  · unfold explicitSpecials
    rw [mapM_ok _ optOf]
    · simp only [bind, Except.bind, List.filterMap_map]
      rfl
    · rintro ⟨n, e⟩ hq
      obtain ⟨n', hn, hb⟩ := List.mem_filterMap.1 hq
      rw [Option.map_eq_some_iff] at hb
      obtain ⟨e', he, hpair⟩ := hb
      injection hpair with h1 h2
      subst h1; subst h2
      unfold constantOf optOf
      match e', he with
      | .num x, _ => rfl
      | .seq (x :: _), _ => rfl
      | .seq [], he => exact absurd he (h _ hn)
      | .text _, _ => rfl
      | .quantity _, _ => rfl
  · intro n x
    rw [List.mem_filterMap]
    constructor
    · rintro ⟨⟨n', e⟩, hmem, ho⟩
      obtain ⟨m, hm, hb⟩ := List.mem_filterMap.1 hmem
      rw [Option.map_eq_some_iff] at hb
      obtain ⟨e', he, hpair⟩ := hb
      injection hpair with h1 h2
      subst h1; subst h2
      unfold optOf at ho
      match e', he, ho with
      | .num v, he, ho =>
        injection ho with ho; injection ho with h1 h2
        subst h1
        exact ⟨hm, v, .inl he, h2⟩
      | .seq (v :: vs), he, ho =>
        injection ho with ho; injection ho with h1 h2
        subst h1
        exact ⟨hm, v, .inr ⟨vs, he⟩, h2⟩
    · rintro ⟨hn, v, hv, rfl⟩
      rcases hv with hv | ⟨vs, hv⟩
      · exact ⟨(n, .num v), List.mem_filterMap.2 ⟨n, hn, by rw [hv]; rfl⟩, rfl⟩
      · exact ⟨(n, .seq (v :: vs)), List.mem_filterMap.2 ⟨n, hn, by rw [hv]; rfl⟩, rfl⟩

theorem mem_union (d₁ d₂ : List (Str × ℚ)) (n : Str) (x : ℚ) :
    (n, x) ∈ union d₁ d₂ ↔ ((n, x) ∈ d₁ ∧ ∀ y, (n, y) ∉ d₂) ∨ (n, x) ∈ d₂ := by
  unfold union
  rw [List.mem_append, List.mem_filter]
  simp only [Bool.not_eq_true', List.any_eq_false, decide_eq_true_eq, Prod.forall]
  constructor
  · rintro (⟨h, h'⟩ | h)
    · exact .inl ⟨h, fun y hy => h' n y hy rfl⟩
    · exact .inr h
  · rintro (⟨h, h'⟩ | h)
    · exact .inl ⟨h, fun a b hab he => h' b (he ▸ hab)⟩
    · exact .inr h

theorem not_names : ∀ n ∈ ["N/A", "UNK", "ISIS_NULL", "ISIS_LOW_INST_SAT", "ISIS_LOW_REPR_SAT", "ISIS_HIGH_INST_SAT",
    "ISIS_HIGH_REPR_SAT"].map String.toList, n ∉ constantNames := by decide +kernel
theorem null_name : sNULL ∈ constantNames := by decide +kernel

/-- the raw array -/
def rawInts (t : IntType) (raw : List (List Int)) : Arr := .ints t (raw.map (·.map fun x => (x, false)))

theorem rawInts_flat (t : IntType) (raw : List (List Int)) :
    (rawInts t raw).values.flatten = raw.flatten.map fun x : Int => ((some (x : ℚ), false) : FElem) := by
  simp only [rawInts, Arr.values, List.map_map, List.map_flatten]
  congr 1
  apply List.map_congr_left
  intro l _
  simp

theorem present_raw (E : Env) (t : IntType) (raw : List (List Int)) (c : Int) :
    present E (rawInts t raw) (c : ℚ) = decide (c ∈ raw.flatten) := by
  rw [Bool.eq_iff_iff]
  show ((rawInts t raw).values.flatten.any fun e => decide (e.1 = some (c : ℚ))) = true ↔ _
  rw [rawInts_flat, List.any_map, List.any_eq_true, decide_eq_true_eq]
  constructor
  · rintro ⟨x, hx, h⟩
    simp only [Function.comp_apply, Option.some.injEq, decide_eq_true_eq, Int.cast_inj] at h
    exact h ▸ hx
  · intro h
    exact ⟨c, h, by simp⟩

/-- what the table of values has for a dtype -/
theorem implicit_ints (R : Rounding double) (t : IntType) (ht : t ∈ knownInts) (h8 : t ≠ uint8) :
    ∃ poss : List (Str × Int), implicitConstants R (.int t) = some (poss.map fun q => (q.1, (q.2 : ℚ))) ∧
      (∀ x, (∃ n, (n, x) ∈ poss) ↔ x ∈ implicitValues t) ∧
      (∀ n y, (n, y) ∈ poss → n ∈ constantNames → n = sNULL ∧ t = uint16 ∧ y = 0) ∧
      (t = uint16 → (sNULL, (0 : Int)) ∈ poss) := by
  simp only [knownInts, List.mem_cons, List.not_mem_nil, or_false] at ht
  have hN := not_names
  rcases ht with rfl | rfl | rfl | rfl | rfl | rfl | rfl
  · exact absurd rfl h8
  · exact ⟨[], rfl, by simp [implicitValues, int8], by simp, fun h => by cases h⟩
  · refine ⟨[("NULL".toList, 0), ("N/A".toList, 65533), ("UNK".toList, 65534),
      ("ISIS_LOW_INST_SAT".toList, 2), ("ISIS_LOW_REPR_SAT".toList, 1), ("ISIS_HIGH_INST_SAT".toList, 65534),
      ("ISIS_HIGH_REPR_SAT".toList, 65535)], by simp [implicitConstants, uint8, int8, int16, uint16], ?_, ?_, ?_⟩
    · intro x
      simp only [List.mem_cons, Prod.mk.injEq, List.not_mem_nil, or_false, exists_or, exists_eq_left, implicitValues, uint16]
      tauto
    · intro n y hy hn
      simp only [List.mem_cons, Prod.mk.injEq, List.not_mem_nil, or_false] at hy
      rcases hy with ⟨rfl, rfl⟩ | ⟨rfl, rfl⟩ | ⟨rfl, rfl⟩ | ⟨rfl, rfl⟩ | ⟨rfl, rfl⟩ | ⟨rfl, rfl⟩ | ⟨rfl, rfl⟩
      · exact ⟨rfl, rfl, rfl⟩
      all_goals exact absurd hn (hN _ (by simp))
    · intro _; simp [sNULL]
  · refine ⟨[("N/A".toList, -32768), ("UNK".toList, 32767), ("ISIS_LOW_INST_SAT".toList, -32766),
      ("ISIS_LOW_REPR_SAT".toList, -32767), ("ISIS_HIGH_INST_SAT".toList, -32765), ("ISIS_HIGH_REPR_SAT".toList, -32764)],
      by simp [implicitConstants, uint8, int8, int16], ?_, ?_, fun h => by cases h⟩
    · intro x
      simp only [List.mem_cons, Prod.mk.injEq, List.not_mem_nil, or_false, exists_or, exists_eq_left, implicitValues, int16]
    · intro n y hy hn
      simp only [List.mem_cons, Prod.mk.injEq, List.not_mem_nil, or_false] at hy
      rcases hy with ⟨rfl, rfl⟩ | ⟨rfl, rfl⟩ | ⟨rfl, rfl⟩ | ⟨rfl, rfl⟩ | ⟨rfl, rfl⟩ | ⟨rfl, rfl⟩
      all_goals exact absurd hn (hN _ (by simp))
  · refine ⟨[("N/A".toList, 4294967293), ("UNK".toList, 4294967294), ("ISIS_NULL".toList, 0xFF7FFFFB),
      ("ISIS_LOW_INST_SAT".toList, 0xFF7FFFFD), ("ISIS_LOW_REPR_SAT".toList, 0xFF7FFFFC),
      ("ISIS_HIGH_INST_SAT".toList, 0xFF7FFFFE), ("ISIS_HIGH_REPR_SAT".toList, 0xFF7FFFFF)],
      by simp [implicitConstants, uint8, int8, int16, uint16, int32, int64, uint32], ?_, ?_, fun h => by cases h⟩
    · intro x
      simp only [List.mem_cons, Prod.mk.injEq, List.not_mem_nil, or_false, exists_or, exists_eq_left, implicitValues, uint32]
    · intro n y hy hn
      simp only [List.mem_cons, Prod.mk.injEq, List.not_mem_nil, or_false] at hy
      rcases hy with ⟨rfl, rfl⟩ | ⟨rfl, rfl⟩ | ⟨rfl, rfl⟩ | ⟨rfl, rfl⟩ | ⟨rfl, rfl⟩ | ⟨rfl, rfl⟩ | ⟨rfl, rfl⟩
      all_goals exact absurd hn (hN _ (by simp))
  all_goals
    refine ⟨[("N/A".toList, -214743648), ("UNK".toList, 2147483647)],
      by simp [implicitConstants, uint8, int8, int16, uint16, int32, int64, uint32], ?_, ?_, fun h => by cases h⟩
    · intro x
      simp only [List.mem_cons, Prod.mk.injEq, List.not_mem_nil, or_false, exists_or, exists_eq_left, implicitValues, int32, int64]
    · intro n y hy hn
      simp only [List.mem_cons, Prod.mk.injEq, List.not_mem_nil, or_false] at hy
      rcases hy with ⟨rfl, rfl⟩ | ⟨rfl, rfl⟩
      all_goals exact absurd hn (hN _ (by simp))

theorem findSpecials_ints (E : Env) (block : Block) (hb : NoEmptyConstant block) (t : IntType) (ht : t ∈ knownInts)
    (raw : List (List Int)) :
    ∃ sp, findSpecials E block (rawInts t raw) = .ok (sp, false) ∧
      ∀ x ∈ raw.flatten, (∃ n, (n, (x : ℚ)) ∈ sp) ↔ SpecialInt block t raw x := by
  obtain ⟨L, hL, hmem⟩ := explicit_ok block hb
  by_cases h8 : t = uint8
  · subst h8
    refine ⟨L, ?_, ?_⟩
    · unfold findSpecials
      rw [hL]
      rfl
    · intro x _
      unfold SpecialInt
      simp only [hmem]
      have : ¬ (x ∈ implicitValues uint8) := by simp [implicitValues, uint8]
      have h16 : uint8 ≠ uint16 := by decide
      simp only [this, or_false, h16, false_and, and_false, not_false_eq_true, and_true]
  · obtain ⟨poss, hp, himp, hnames, h0⟩ := implicit_ints E.R t ht h8
    refine ⟨union L ((poss.map fun q => (q.1, (q.2 : ℚ))).filter fun q => present E (rawInts t raw) q.2), ?_, ?_⟩
    · unfold findSpecials
      rw [hL]
      simp only [bind, Except.bind, rawInts, Arr.kind, Kind.int.injEq, h8, if_false, hp]
      have := rawInts_flat t raw
      rw [rawInts] at this
      simp only [this, List.any_map]
      simp
    · intro x hx
      have hmemposs : ∀ n (y : ℚ), (n, y) ∈ ((poss.map fun q => (q.1, (q.2 : ℚ))).filter fun q => present E (rawInts t raw) q.2) ↔
          ∃ z : Int, y = z ∧ (n, z) ∈ poss ∧ z ∈ raw.flatten := by
        intro n y
        rw [List.mem_filter, List.mem_map]
        constructor
        · rintro ⟨⟨⟨n', z⟩, hz, he⟩, hpr⟩
          simp only [Prod.mk.injEq] at he
          obtain ⟨rfl, rfl⟩ := he
          simp only [present_raw, decide_eq_true_eq] at hpr
          exact ⟨z, rfl, hz, hpr⟩
        · rintro ⟨z, rfl, hz, hr⟩
          exact ⟨⟨(n, z), hz, rfl⟩, by simp only [present_raw, hr, decide_true]⟩
      unfold SpecialInt
      simp only [mem_union, hmemposs, hmem]
      constructor
      · rintro ⟨n, ⟨⟨hn, hd⟩, hno⟩ | ⟨z, hz, hzp, _⟩⟩
        · refine .inl ⟨n, hn, hd, ?_⟩
          rintro ⟨rfl, rfl, h00⟩
          exact hno 0 ⟨0, by simp, h0 rfl, h00⟩
        · refine .inr ((himp x).1 ⟨n, ?_⟩)
          have : x = z := by exact_mod_cast hz
          exact this ▸ hzp
      · rintro (⟨n, hn, hd, hno⟩ | h)
        · refine ⟨n, .inl ⟨⟨hn, hd⟩, ?_⟩⟩
          rintro y ⟨z, _, hzp, hzr⟩
          obtain ⟨h1, h2, h3⟩ := hnames n z hzp hn
          exact hno ⟨h1, h2, h3 ▸ hzr⟩
        · obtain ⟨n, hn⟩ := (himp x).2 h
          exact ⟨n, .inr ⟨x, rfl, hn, hx⟩⟩

open Classical in
/-- **C14 (get_scaled of integers).** In a PDS3 array of integers exactly the special constants (what the label
declares and pdr's own values for the dtype) are masked, keeping their value; every other element becomes exactly value
times factor plus offset, if the dtype holds the factor, the offset and the results. -/
theorem C14_get_scaled (E : Env) (hE : Promotes E) (block : Block) (hb : NoEmptyConstant block) (t : IntType)
    (ht : t ∈ knownInts) (raw : List (List Int)) (s o : Int)
    (hs : readFactor 1 (block sScale) = .ok (.one (.int s))) (ho : readFactor 0 (block sOffset) = .ok (.one (.int o)))
    (hfs : Fits t s) (hfo : Fits t o)
    (hfit : ∀ x ∈ raw.flatten, ¬ SpecialInt block t raw x → Fits t (x * s) ∧ Fits t (x * s + o)) (ft : Option FloatType) :
    getScaled E .pds3 false block (rawInts t raw) none false ft =
      .ok (raw.map (·.map fun x =>
        if SpecialInt block t raw x then (some (x : ℚ), true) else (some ((x : ℚ) * s + o), false))) := by
  obtain ⟨sp, hf, hsp⟩ := findSpecials_ints E block hb t ht raw
  have hbits : 1 ≤ t.bits := by
    simp only [knownInts, List.mem_cons, List.not_mem_nil, or_false] at ht
    rcases ht with rfl | rfl | rfl | rfl | rfl | rfl | rfl <;> decide
  have hmask : (if sp.isEmpty && !false then rawInts t raw else maskSpecials (sp, false) (rawInts t raw)) =
      .ints t (raw.map (·.map fun x => (x, decide (SpecialInt block t raw x)))) := by
    split
    · rename_i he
      have he : sp = [] := by simpa using he
      unfold rawInts
      congr 1
      apply List.map_congr_left
      intro l hl
      apply List.map_congr_left
      intro x hx
      have := hsp x (List.mem_flatten.2 ⟨l, hl, hx⟩)
      rw [he] at this
      simp only [List.not_mem_nil, exists_false, false_iff] at this
      simp [this]
    · unfold rawInts maskSpecials Arr.setMask
      simp only [List.map_map]
      congr 1
      apply List.map_congr_left
      intro l hl
      simp only [Function.comp_apply, List.map_map]
      apply List.map_congr_left
      intro x hx
      have := hsp x (List.mem_flatten.2 ⟨l, hl, hx⟩)
      simp only [Function.comp_apply, Prod.mk.injEq, true_and, Bool.false_and, Bool.or_false]
      rw [Bool.eq_iff_iff, List.any_eq_true, decide_eq_true_eq, ← this]
      constructor
      · rintro ⟨⟨n, y⟩, hq, he⟩
        exact ⟨n, by simpa [← of_decide_eq_true he] using hq⟩
      · rintro ⟨n, hn⟩
        exact ⟨(n, x), hn, by simp⟩
  unfold getScaled
  simp only [Bool.false_eq_true, if_false, hf, bind, Except.bind, hmask]
  unfold scaleArray
  simp only [hs, ho, bind, Except.bind]
  rw [C14_integers E hE t hbits _ s o hfs hfo]
  · simp only [List.map_map]
    congr 1
    apply List.map_congr_left
    intro l _
    simp only [Function.comp_apply, List.map_map]
    apply List.map_congr_left
    intro x _
    simp only [Function.comp_apply, decide_eq_true_eq]
    split <;> simp_all
  · intro l hl e he hm
    obtain ⟨l', hl', rfl⟩ := List.mem_map.1 hl
    obtain ⟨x, hx, rfl⟩ := List.mem_map.1 he
    exact hfit x (List.mem_flatten.2 ⟨l', hl', hx⟩) (by simpa using hm)
/-! ### arrays of floats -/

theorem ten32 (R : Rounding double) (c : ℚ) (hc : c = 10 ^ 32 ∨ c = -10 ^ 32) : ¬ Rep single (R.fl c) := by
  have key : ∀ σ : Int, (σ = 1 ∨ σ = -1) → ¬ Rep single (R.fl (σ * 10 ^ 32)) := by
    intro σ hσ hr
    have hn : |R.fl ((σ : ℚ) * 10 ^ 32) - σ * 10 ^ 32| ≤ 5366162204393472 := by
      have := R.nearest ((σ : ℚ) * 10 ^ 32) (σ * 5551115123125783 * 2 ^ (54 : Int)) (by
        refine ⟨σ * 5551115123125783, 54, ?_, ?_, ?_, ?_⟩
        · rcases hσ with rfl | rfl <;> norm_num [double]
        · norm_num [double]
        · norm_num [double]
        · push_cast; rfl)
      refine le_trans this ?_
      rcases hσ with rfl | rfl <;> norm_num
    obtain ⟨k, e, hk, h1, h2, hx⟩ := hr
    rw [hx] at hn
    simp only [single] at hk
    by_cases he : e ≤ 82
    · have hp : (0 : ℚ) < 2 ^ e := zpow_pos (by norm_num) _
      have hle : (2 : ℚ) ^ e ≤ 2 ^ (82 : Int) := zpow_le_zpow_right₀ (by norm_num) he
      have hk' : |(k : ℚ)| ≤ 2 ^ 24 := by
        rw [← Int.cast_abs]
        exact_mod_cast le_of_lt hk
      have hz : |(k : ℚ) * 2 ^ e| ≤ 2 ^ 106 := by
        rw [abs_mul, abs_of_pos hp]
        calc |(k : ℚ)| * 2 ^ e ≤ 2 ^ 24 * 2 ^ (82 : Int) := mul_le_mul hk' hle (le_of_lt hp) (by norm_num)
          _ = 2 ^ 106 := by norm_num
      rw [abs_le] at hn hz
      rcases hσ with rfl | rfl <;> norm_num at hn hz <;> linarith [hn.1, hn.2, hz.1, hz.2]
    · obtain ⟨j, hj⟩ : ∃ j : Nat, e = 83 + j := ⟨(e - 83).toNat, by omega⟩
      have hz : (k : ℚ) * 2 ^ e = ((k * 2 ^ j * 2 ^ 83 : Int) : ℚ) := by
        rw [hj, zpow_add₀ (by norm_num)]
        push_cast
        rw [zpow_natCast]
        norm_num
        ring
      rw [hz] at hn
      generalize k * 2 ^ j = m at hn
      rw [abs_le] at hn
      have hn1 : -5366162204393472 ≤ m * 2 ^ 83 - σ * 10 ^ 32 := by exact_mod_cast hn.1
      have hn2 : m * 2 ^ 83 - σ * 10 ^ 32 ≤ 5366162204393472 := by exact_mod_cast hn.2
      rcases hσ with rfl | rfl <;> omega
  rcases hc with rfl | rfl
  · have := key 1 (.inl rfl); simpa using this
  · have := key (-1) (.inr rfl); simpa using this

/-- the raw array -/
def rawFloats (w : FloatType) (raw : List (List (Option ℚ))) : Arr :=
  match w with
  | .f32 => .f32 (raw.map (·.map fun v => (v, false)))
  | .f64 => .f64 (raw.map (·.map fun v => (v, false)))

theorem rawFloats_flat (w : FloatType) (raw : List (List (Option ℚ))) :
    (rawFloats w raw).values.flatten = raw.flatten.map fun v => ((v, false) : FElem) := by
  cases w <;> simp only [rawFloats, Arr.values, List.map_flatten]

theorem isis_rep (k : Nat) (hk : k ≤ 4) : Rep single (isisFloat k) := by
  refine ⟨-(2 ^ 24 - 1 - k), 104, ?_, by norm_num [single], by norm_num [single], ?_⟩
  · show |-(2 ^ 24 - 1 - (k : Int))| < 2 ^ 24
    rw [abs_neg, abs_of_nonneg] <;> omega
  · unfold isisFloat
    push_cast
    norm_num
    ring

theorem mem_present (E : Env) (w : FloatType) (raw : List (List (Option ℚ))) (c : ℚ) (hc : Rep (formatOf w) c) :
    present E (rawFloats w raw) c = decide (some c ∈ raw.flatten) := by
  have h : present E (rawFloats w raw) c = (rawFloats w raw).values.flatten.any fun e => decide (e.1 = some c) := by
    cases w
    · show ((rawFloats .f32 raw).values.flatten.any fun e => decide (e.1 = some (E.R'.fl c))) = _
      rw [E.R'.exact c hc]
    · rfl
  rw [h, rawFloats_flat, List.any_map, Bool.eq_iff_iff, List.any_eq_true, decide_eq_true_eq]
  constructor
  · rintro ⟨v, hv, he⟩
    have : v = some c := by simpa using he
    exact this ▸ hv
  · intro h
    exact ⟨some c, h, by simp⟩

theorem isis_vals : isisFloat 4 = -16777211 * 2 ^ 104 ∧ isisFloat 3 = -16777212 * 2 ^ 104 ∧
    isisFloat 2 = -16777213 * 2 ^ 104 ∧ isisFloat 1 = -16777214 * 2 ^ 104 ∧ isisFloat 0 = -16777215 * 2 ^ 104 := by
  simp only [isisFloat]
  norm_num

theorem findSpecials_floats (E : Env) (block : Block) (hb : NoEmptyConstant block) (w : FloatType)
    (raw : List (List (Option ℚ))) :
    ∃ sp, findSpecials E block (rawFloats w raw) = .ok (sp, raw.flatten.any Option.isNone) ∧
      ∀ x, some x ∈ raw.flatten → Rep (formatOf w) x → ((∃ n, (n, x) ∈ sp) ↔ SpecialFloat block w raw x) := by
  obtain ⟨L, hL, hmem⟩ := explicit_ok block hb
  obtain ⟨i4, i3, i2, i1, i0⟩ := isis_vals
  have hinv : ((rawFloats w raw).values.flatten.any fun e => e.1.isNone) = raw.flatten.any Option.isNone := by
    rw [rawFloats_flat, List.any_map]; rfl
  have hN := not_names
  have hr4 : Rep (formatOf w) (isisFloat 4) := by
    cases w
    · exact isis_rep 4 (by omega)
    · exact rep_double (isis_rep 4 (by omega))
  obtain ⟨poss, hp, hvals, hnames, h0⟩ : ∃ poss, implicitConstants E.R (rawFloats w raw).kind = some poss ∧
      (∀ x, Rep (formatOf w) x → ((∃ n, (n, x) ∈ poss) ↔ x ∈ implicitFloats w)) ∧
      (∀ n y, (n, y) ∈ poss → n ∈ constantNames → n = sNULL ∧ y = isisFloat 4) ∧ (sNULL, isisFloat 4) ∈ poss := by
    cases w
    · refine ⟨_, rfl, ?_, ?_, by simp [sNULL]⟩
      · intro x hx
        have t1 : x ≠ E.R.fl (-10 ^ 32) := fun h => ten32 E.R _ (.inr rfl) (h ▸ hx)
        have t2 : x ≠ E.R.fl (10 ^ 32) := fun h => ten32 E.R _ (.inl rfl) (h ▸ hx)
        simp only [List.mem_cons, Prod.mk.injEq, List.not_mem_nil, or_false, exists_or, exists_eq_left, implicitFloats,
          t1, t2, false_or, i0, i1, i2, i3, i4]
        tauto
      · intro n y hy hn
        simp only [List.mem_cons, Prod.mk.injEq, List.not_mem_nil, or_false] at hy
        rcases hy with ⟨rfl, rfl⟩ | ⟨rfl, rfl⟩ | ⟨rfl, rfl⟩ | ⟨rfl, rfl⟩ | ⟨rfl, rfl⟩ | ⟨rfl, rfl⟩ | ⟨rfl, rfl⟩
        · exact ⟨rfl, rfl⟩
        all_goals exact absurd hn (hN _ (by simp))
    · refine ⟨_, rfl, ?_, ?_, by simp [sNULL]⟩
      · intro x _
        simp only [List.mem_cons, Prod.mk.injEq, List.not_mem_nil, or_false, exists_eq_left, implicitFloats, i4]
      · intro n y hy _
        simp only [List.mem_cons, Prod.mk.injEq, List.not_mem_nil, or_false] at hy
        exact hy
  refine ⟨union L (poss.filter fun q => present E (rawFloats w raw) q.2), ?_, ?_⟩
  · unfold findSpecials
    rw [hL]
    have hk : (rawFloats w raw).kind ≠ .int uint8 := by cases w <;> intro h <;> cases h
    simp only [bind, Except.bind, hk, if_false, hp, hinv]
  · intro x hx hrx
    unfold SpecialFloat
    rw [← i4]
    simp only [mem_union, List.mem_filter, hmem]
    constructor
    · rintro ⟨n, ⟨⟨hn, hd⟩, hno⟩ | ⟨hz, _⟩⟩
      · refine .inl ⟨n, hn, hd, ?_⟩
        rintro ⟨rfl, h00⟩
        exact hno _ ⟨h0, by rw [mem_present E w raw _ hr4]; exact decide_eq_true h00⟩
      · exact .inr ((hvals x hrx).1 ⟨n, hz⟩)
    · rintro (⟨n, hn, hd, hno⟩ | h)
      · refine ⟨n, .inl ⟨⟨hn, hd⟩, ?_⟩⟩
        rintro y ⟨hy, hpr⟩
        obtain ⟨h1, rfl⟩ := hnames n y hy hn
        rw [mem_present E w raw _ hr4] at hpr
        exact hno ⟨h1, of_decide_eq_true hpr⟩
      · obtain ⟨n, hn⟩ := (hvals x hrx).2 h
        exact ⟨n, .inr ⟨hn, by rw [mem_present E w raw _ hrx]; exact decide_eq_true hx⟩⟩

open Classical in
/-- what an element becomes -/
noncomputable def floatResult (special : ℚ → Prop) (s o : ℚ) : Option ℚ → FElem
  | none => (none, true)
  | some x => if special x then (some x, true) else (some (x * s + o), false)

open Classical in
/-- **C14 (get_scaled of floats).** In an array of floats (`none`: NaN or infinite) exactly the numbers that are not
finite and the special constants are masked, keeping their value; every other element becomes exactly value times
factor plus offset, if the array's dtype holds the factor, the offset and the results. -/
theorem C14_get_scaled_floats (E : Env) (block : Block) (hb : NoEmptyConstant block) (w : FloatType)
    (raw : List (List (Option ℚ))) (s o : Num) (hrep : ∀ x, some x ∈ raw.flatten → Rep (formatOf w) x)
    (hs : readFactor 1 (block sScale) = .ok (.one s)) (ho : readFactor 0 (block sOffset) = .ok (.one o))
    (hfs : Rep (formatOf w) s.val) (hfo : Rep (formatOf w) o.val)
    (hfit : ∀ x, some x ∈ raw.flatten → ¬ SpecialFloat block w raw x →
      Rep (formatOf w) (x * s.val) ∧ Rep (formatOf w) (x * s.val + o.val)) (ft : Option FloatType) :
    getScaled E .pds3 false block (rawFloats w raw) none false ft =
      .ok (raw.map (·.map (floatResult (SpecialFloat block w raw) s.val o.val))) := by
  obtain ⟨sp, hf, hsp⟩ := findSpecials_floats E block hb w raw
  let m : Option ℚ → Bool := fun v => match v with
    | none => true
    | some x => decide (SpecialFloat block w raw x)
  let P : List (List FElem) := raw.map (·.map fun v => (v, m v))
  have hmask : (if sp.isEmpty && !(raw.flatten.any Option.isNone) then rawFloats w raw
      else maskSpecials (sp, raw.flatten.any Option.isNone) (rawFloats w raw)) =
      (match w with
        | .f32 => .f32 P
        | .f64 => .f64 P) := by
    have hQ1 : sp.isEmpty && !(raw.flatten.any Option.isNone) → (raw.map (·.map fun v => ((v, false) : FElem))) = P := by
      intro he
      simp only [Bool.and_eq_true, List.isEmpty_iff, Bool.not_eq_true', List.any_eq_false] at he
      apply List.map_congr_left
      intro l hl
      apply List.map_congr_left
      intro v hv
      have hv' := List.mem_flatten.2 ⟨l, hl, hv⟩
      cases v with
      | none => exact absurd rfl (he.2 _ hv')
      | some x =>
        have := hsp x hv' (hrep x hv')
        rw [he.1] at this
        simp only [List.not_mem_nil, exists_false, false_iff] at this
        simp [m, this]
    have hQ2 : (raw.map (·.map fun v => ((v, (match v with
        | some x => sp.any fun q => decide (q.2 = x)
        | none => false) || (raw.flatten.any Option.isNone && v.isNone)) : FElem))) = P := by
      apply List.map_congr_left
      intro l hl
      apply List.map_congr_left
      intro v hv
      have hv' := List.mem_flatten.2 ⟨l, hl, hv⟩
      cases v with
      | none =>
        have : raw.flatten.any Option.isNone = true := List.any_eq_true.2 ⟨none, hv', rfl⟩
        simp [m, this]
      | some x =>
        have := hsp x hv' (hrep x hv')
        simp only [Option.isNone_some, Bool.and_false, Bool.or_false, m, Prod.mk.injEq, true_and]
        rw [Bool.eq_iff_iff, List.any_eq_true, decide_eq_true_eq, ← this]
        constructor
        · rintro ⟨⟨n, y⟩, hq, he⟩
          exact ⟨n, by simpa [← of_decide_eq_true he] using hq⟩
        · rintro ⟨n, hn⟩
          exact ⟨(n, x), hn, by simp⟩
    split
    · rename_i he
      cases w <;> simp only [rawFloats, hQ1 he]
    · cases w <;>
      · simp only [rawFloats, maskSpecials, Arr.setMask, List.map_map]
        rw [← hQ2]
        congr 1
        apply List.map_congr_left
        intro l _
        simp only [Function.comp_apply, List.map_map]
        apply List.map_congr_left
        intro v _
        rfl
  have hres : P.map (·.map (fscaled s.val o.val)) = raw.map (·.map (floatResult (SpecialFloat block w raw) s.val o.val)) := by
    simp only [P, List.map_map]
    apply List.map_congr_left
    intro l _
    simp only [Function.comp_apply, List.map_map]
    apply List.map_congr_left
    intro v _
    cases v with
    | none => rfl
    | some x =>
      simp only [Function.comp_apply, m, fscaled, floatResult, decide_eq_true_eq, Option.map_some]
      split <;> simp_all
  have hfit' : ∀ l ∈ P, ∀ e ∈ l, ∀ x, e = (some x, false) →
      Rep (formatOf w) (x * s.val) ∧ Rep (formatOf w) (x * s.val + o.val) := by
    intro l hl e he x hx
    obtain ⟨l', hl', rfl⟩ := List.mem_map.1 hl
    obtain ⟨v, hv, rfl⟩ := List.mem_map.1 he
    simp only [Prod.mk.injEq] at hx
    obtain ⟨rfl, hm⟩ := hx
    exact hfit x (List.mem_flatten.2 ⟨l', hl', hv⟩) (by simpa [m] using hm)
  unfold getScaled
  simp only [Bool.false_eq_true, if_false, hf, bind, Except.bind, hmask]
  unfold scaleArray
  simp only [hs, ho, bind, Except.bind]
  cases w
  · rw [← hres]
    exact (C14_floats E s o P ft).2 hfs hfo hfit'
  · rw [← hres]
    exact (C14_floats E s o P ft).1 hfs hfo hfit'

/-- **C14 (nothing to do).** Factor 1 and offset 0 (also when the label has neither) give back the values of the array;
so does every array its loader has scaled already, and every array of a product that is neither PDS3 nor PDS4. -/
theorem C14_unchanged (E : Env) (block : Block) (a : Arr) (known : Option (List (Str × ℚ) × Bool)) (inplace : Bool)
    (ft : Option FloatType) :
    (∀ s o : Num, s.val = 1 → o.val = 0 → scaleBy E a (.one s) (.one o) inplace ft = .ok a.values) ∧
    (block sScale = none → block sOffset = none → scaleArray E block a inplace ft = .ok a.values) ∧
    (∀ std, getScaled E std true block a known inplace ft = .ok a.values) ∧
    (∀ pre, getScaled E .other pre block a known inplace ft = .ok a.values) := by
  refine ⟨?_, ?_, fun _ => rfl, ?_⟩
  · intro s o h1 h2
    simp [scaleBy, Factor.isNum, h1, h2]
  · intro h1 h2
    simp [scaleArray, h1, h2, readFactor, bind, Except.bind, scaleBy, Factor.isNum, Num.val]
  · intro pre
    cases pre <;> rfl

/-- **C14 (the factor of the label).** A number is taken as it is, also with units; without an entry, or with a text that
says there is none, the factor is 1 and the offset 0. -/
theorem C14_factor (d : Int) (n : Num) (e : Entry) :
    readFactor d none = .ok (.one (.int d)) ∧ readFactor d (some (.num n)) = .ok (.one n) ∧
    readFactor d (some (.quantity (.num n))) = .ok (.one n) ∧
    (∀ s, e = .text s → upper (strip s) ∈ nullTexts → readFactor d (some e) = .ok (.one (.int d))) := by
  refine ⟨rfl, rfl, rfl, ?_⟩
  rintro s rfl h
  simp [readFactor, h]

/-! ### limits -/

/-- **C56 (in place).** With `inplace=True`, one factor and one offset that change something, and no change from
integers to floats, the call fails. -/
theorem C56_inplace (E : Env) (a : Arr) (s o : Num) (h : ¬ (s.val = 1 ∧ o.val = 0))
    (hc : castingToFloat a (.one s) (.one o) = false) (ft : Option FloatType) :
    scaleBy E a (.one s) (.one o) true ft = .error .typeError := by
  unfold scaleBy
  rw [if_neg (by simpa [Factor.isNum] using h)]
  simp [hc, overflowWrap, inplaceScale]

theorem wrap_wrap_add (t : IntType) (x y : Int) : wrap t (wrap t x + y) = wrap t (x + y) := by
  apply wrap_congr
  have := wrap_mod t t.bits (le_refl _) x
  rw [Int.add_emod, this, ← Int.add_emod]

theorem mulAdd_wraps (E : Env) (hE : E.prom = nep50) (t : IntType) (raw : List (List Int)) (s o : Int)
    (hs : Fits t s) (ho : Fits t o) : mulAdd E (rawInts t raw) (.int s) (.int o) =
      .ok (.ints t (raw.map (·.map fun x => (wrap t (x * s + o), false)))) := by
  unfold mulAdd rawInts arith
  simp only [hE, nep50, if_pos (show lo t ≤ s ∧ s ≤ hi t from hs), if_pos (show lo t ≤ o ∧ o ≤ hi t from ho), bind,
    Except.bind, List.map_map, Except.ok.injEq, Arr.ints.injEq, true_and]
  apply List.map_congr_left
  intro l _
  simp only [Function.comp_apply, List.map_map]
  apply List.map_congr_left
  intro x _
  simp [wrap_wrap_add]

/-- **C56 (integers wrap around).** An integer array without masked elements, with a factor and an offset its dtype
holds, keeps its dtype: every element is the low bits of value times factor plus offset. -/
theorem C56_wraps (E : Env) (hE : E.prom = nep50) (t : IntType) (ht : 1 ≤ t.bits) (raw : List (List Int)) (s o : Int)
    (hs : Fits t s) (ho : Fits t o) (hraw : ∀ x ∈ raw.flatten, Fits t x) (ft : Option FloatType) :
    scaleBy E (rawInts t raw) (.one (.int s)) (.one (.int o)) false ft =
      .ok (raw.map (·.map fun x => (some ((wrap t (x * s + o) : Int) : ℚ), false))) := by
  have hm := mulAdd_wraps E hE t raw s o hs ho
  unfold scaleBy
  split
  · rename_i hc
    simp only [Bool.and_eq_true, Factor.isNum, Num.val] at hc
    have hs1 : s = 1 := by exact_mod_cast of_decide_eq_true hc.1
    have ho1 : o = 0 := by exact_mod_cast of_decide_eq_true hc.2
    subst hs1; subst ho1
    simp only [rawInts, Arr.values, List.map_map]
    congr 1
    apply List.map_congr_left
    intro l hl
    simp only [Function.comp_apply, List.map_map]
    apply List.map_congr_left
    intro x hx
    have := hraw x (List.mem_flatten.2 ⟨l, hl, hx⟩)
    simp only [Function.comp_apply, Prod.mk.injEq, Option.some.injEq, Int.cast_inj, and_true]
    rw [wrap_id t ht _ (by simpa using this.1) (by simpa using this.2)]
    simp
  · have hcast : castingToFloat (rawInts t raw) (.one (.int s)) (.one (.int o)) = false := rfl
    cases ft <;>
    · simp only [Bool.false_and, Bool.false_eq_true, if_false, hcast, overflowWrap, copyScale, hm, Except.map, Arr.values,
        List.map_map]
      congr 1
      apply List.map_congr_left
      intro l _
      simp only [Function.comp_apply, List.map_map]
      rfl

/-- **C56 (an integer factor with an offset that is not an integer).** The product is still the low bits in the dtype of
the array; only then is the result made a float64. -/
theorem C56_wraps_before_offset (E : Env) (hE : E.prom = nep50) (t : IntType) (ht : 1 ≤ t.bits) (ht' : t.bits ≤ 32)
    (raw : List (List Int)) (s : Int) (o : ℚ) (hs : Fits t s) (hso : ¬ (s = 1 ∧ o = 0))
    (hfit : ∀ x ∈ raw.flatten, |((wrap t (x * s) : Int) : ℚ) + o| < limit double) :
    scaleBy E (rawInts t raw) (.one (.int s)) (.one (.float o)) false none =
      .ok (raw.map (·.map fun x => (some (E.R.fl (((wrap t (x * s) : Int) : ℚ) + o)), false))) := by
  have hrep : ∀ x : Int, E.R.fl ((wrap t x : Int) : ℚ) = ((wrap t x : Int) : ℚ) := by
    intro x
    apply E.R.exact
    refine ⟨wrap t x, 0, ?_, by norm_num [double], by norm_num [double], by simp⟩
    have h1 := wrap_range t ht x
    have hp : (2 : Int) ^ t.bits ≤ 2 ^ 32 := pow_le_pow_right₀ (by norm_num) ht'
    have hp' : (2 : Int) ^ (t.bits - 1) ≤ 2 ^ 32 := pow_le_pow_right₀ (by norm_num) (by omega)
    have hp0 : (0 : Int) < 2 ^ (t.bits - 1) := by positivity
    have hlo : -(2 ^ 32) ≤ lo t := by
      unfold lo; split <;> omega
    have hhi : hi t ≤ 2 ^ 32 := by
      unfold hi; split <;> omega
    show |wrap t x| < 2 ^ 53
    rw [abs_lt]
    constructor <;> omega
  have hm : mulAdd E (rawInts t raw) (.int s) (.float o) =
      .ok (.f64 (raw.map (·.map fun x => (some (E.R.fl (((wrap t (x * s) : Int) : ℚ) + o)), false)))) := by
    unfold mulAdd rawInts arith
    simp only [hE, nep50, if_pos (show lo t ≤ s ∧ s ≤ hi t from hs), bind, Except.bind, List.map_map, List.mapM_map]
    rw [mapM_ok _ (fun l => l.map fun x => (some (E.R.fl (((wrap t (x * s) : Int) : ℚ) + o)), false))]
    intro l hl
    simp only [Function.comp_apply, List.map_map]
    rw [fop_ok]
    · simp only [List.map_map]
      congr 1
      apply List.map_congr_left
      intro x _
      simp [hrep]
    · intro e he x hx
      obtain ⟨y, hy, rfl⟩ := List.mem_map.1 he
      simp only [Function.comp_apply, Bool.false_eq_true, if_false, Prod.mk.injEq, Option.some.injEq, and_true, hrep] at hx
      rw [← hx]
      exact hfit y (List.mem_flatten.2 ⟨l, hl, hy⟩)
  unfold scaleBy
  split
  · rename_i hc
    simp only [Bool.and_eq_true, Factor.isNum, Num.val] at hc
    exact absurd ⟨by exact_mod_cast of_decide_eq_true hc.1, of_decide_eq_true hc.2⟩ hso
  · simp only [Bool.false_and, Bool.false_eq_true, if_false, overflowWrap, copyScale, hm, Except.map, Arr.values]

theorem visible_raw (raw : List (List Int)) : visible (raw.map (·.map fun x => (x, false))) = raw.flatten := by
  unfold visible
  rw [← List.map_flatten, List.filter_eq_self.2, List.map_map]
  · conv_rhs => rw [← List.map_id raw.flatten]
    rfl
  · intro e he
    obtain ⟨x, _, rfl⟩ := List.mem_map.1 he
    rfl

theorem foldl_min_mem (x : Int) (xs : List Int) : xs.foldl min x ∈ x :: xs := by
  induction xs generalizing x with
  | nil => simp
  | cons y ys ih =>
    rw [List.foldl_cons]
    rcases List.mem_cons.1 (ih (min x y)) with h | h
    · rw [h]
      rcases min_choice x y with h' | h' <;> simp [h']
    · simp [h]

theorem foldl_min_le (x : Int) (xs : List Int) : ∀ y ∈ x :: xs, xs.foldl min x ≤ y := by
  induction xs generalizing x with
  | nil => simp
  | cons z zs ih =>
    intro y hy
    rw [List.foldl_cons]
    rcases List.mem_cons.1 hy with rfl | hy
    · exact le_trans (ih _ _ (List.mem_cons_self ..)) (min_le_left _ _)
    · rcases List.mem_cons.1 hy with rfl | hy
      · exact le_trans (ih _ _ (List.mem_cons_self ..)) (min_le_right _ _)
      · exact ih _ _ (List.mem_cons_of_mem _ hy)

theorem foldl_max_ge (x : Int) (xs : List Int) : ∀ y ∈ x :: xs, y ≤ xs.foldl max x := by
  induction xs generalizing x with
  | nil => simp
  | cons z zs ih =>
    intro y hy
    rw [List.foldl_cons]
    rcases List.mem_cons.1 hy with rfl | hy
    · exact le_trans (le_max_left _ _) (ih _ _ (List.mem_cons_self ..))
    · rcases List.mem_cons.1 hy with rfl | hy
      · exact le_trans (le_max_right _ _) (ih _ _ (List.mem_cons_self ..))
      · exact ih _ _ (List.mem_cons_of_mem _ hy)

/-- what `fitToScale` chooses for an array with a smallest element `m` -/
theorem fit_choice (raw : List (List Int)) (scale offset m : Int) (hm : m ∈ raw.flatten) (hmin : ∀ x ∈ raw.flatten, m ≤ x) :
    ∃ M, (∀ x ∈ raw.flatten, x ≤ M) ∧ ∀ c,
      candidates.find? (fun c => decide (lo c ≤ m * scale + offset) && decide (M * scale + offset ≤ hi c)) = some c →
      fitToScale (raw.map (·.map fun x => (x, false))) scale offset = .ok (rawInts c (raw.map (·.map (wrap c)))) := by
  cases hf : raw.flatten with
  | nil => rw [hf] at hm; cases hm
  | cons x xs =>
    rw [hf] at hm hmin
    refine ⟨xs.foldl max x, foldl_max_ge x xs, ?_⟩
    have hmn : xs.foldl min x = m :=
      le_antisymm (foldl_min_le x xs m hm) (hmin _ (foldl_min_mem x xs))
    intro c hc
    unfold fitToScale
    rw [visible_raw, hf]
    simp only [hmn, hc, rawInts, List.map_map]
    congr 2
    apply List.map_congr_left
    intro l _
    simp only [Function.comp_apply, List.map_map]
    rfl

theorem mulAdd_overflow (E : Env) (hE : E.prom = nep50) (t : IntType) (p : List (List IElem)) (s o : Int)
    (h : ¬ Fits t s ∨ ¬ Fits t o) : mulAdd E (.ints t p) (.int s) (.int o) = .error .overflowError := by
  unfold mulAdd arith
  by_cases hs : Fits t s
  · have ho := h.resolve_left (by simpa using hs)
    simp only [hE, nep50, if_pos (show lo t ≤ s ∧ s ≤ hi t from hs), if_neg (show ¬ (lo t ≤ o ∧ o ≤ hi t) from ho), bind,
      Except.bind]
  · simp only [hE, nep50, if_neg (show ¬ (lo t ≤ s ∧ s ≤ hi t) from hs), bind, Except.bind]

/-- **C56 (negative offsets of unsigned arrays).** An unsigned array without masked elements that has a 0, with a factor
from 0 and a negative offset: OverflowError. -/
theorem C56_negative_offset (E : Env) (hE : E.prom = nep50) (t : IntType)
    (ht : t = uint8 ∨ t = uint16 ∨ t = uint32 ∨ t = uint64) (raw : List (List Int)) (h0 : 0 ∈ raw.flatten)
    (hraw : ∀ x ∈ raw.flatten, Fits t x) (s o : Int) (hs : Fits t s) (ho : o < 0) (ft : Option FloatType) :
    scaleBy E (rawInts t raw) (.one (.int s)) (.one (.int o)) false ft = .error .overflowError := by
  have hlo0 : lo t = 0 := by rcases ht with rfl | rfl | rfl | rfl <;> rfl
  have hhi : hi t ≤ hi uint64 := by rcases ht with rfl | rfl | rfl | rfl <;> decide
  have hs0 : 0 ≤ s := by have := hs.1; omega
  obtain ⟨M, hM, hchoice⟩ := fit_choice raw o s 0 h0 (fun x hx => by have := (hraw x hx).1; omega)
  have hM0 : 0 ≤ M := hM 0 h0
  have hMo : M * o + s ≤ s := by nlinarith
  have hfind : ∃ c, candidates.find? (fun c => decide (lo c ≤ 0 * o + s) && decide (M * o + s ≤ hi c)) = some c ∧ lo c = 0 := by
    by_cases h8 : M * o + s ≤ hi uint8
    · exact ⟨uint8, by simp [candidates, h8, show lo uint8 ≤ s from hs0], rfl⟩
    by_cases h16 : M * o + s ≤ hi uint16
    · exact ⟨uint16, by simp [candidates, h8, h16, show lo uint16 ≤ s from hs0], rfl⟩
    by_cases h32 : M * o + s ≤ hi uint32
    · exact ⟨uint32, by simp [candidates, h8, h16, h32, show lo uint32 ≤ s from hs0], rfl⟩
    have h64 : M * o + s ≤ hi uint64 := le_trans hMo (le_trans hs.2 hhi)
    exact ⟨uint64, by simp [candidates, h8, h16, h32, h64, show lo uint64 ≤ s from hs0], rfl⟩
  obtain ⟨c, hc, hc0⟩ := hfind
  have hfit := hchoice c hc
  have key : overflowWrap (copyScale E) (rawInts t raw) (.one (.int o)) (.one (.int s)) = .error .overflowError := by
    unfold overflowWrap
    have e1 : copyScale E (rawInts t raw) (.one (.int o)) (.one (.int s)) = .error .overflowError := by
      simp only [copyScale, rawInts]
      rw [mulAdd_overflow E hE _ _ _ _ (.inr (fun h => by have := h.1; omega))]
      rfl
    have e2 : copyScale E (rawInts c (raw.map (·.map (wrap c)))) (.one (.int o)) (.one (.int s)) = .error .overflowError := by
      simp only [copyScale, rawInts]
      rw [mulAdd_overflow E hE _ _ _ _ (.inr (fun h => by have := h.1; omega))]
      rfl
    rw [e1]
    simp only [rawInts] at hfit e2 ⊢
    simp only [hfit, e2]
  unfold scaleBy
  rw [if_neg]
  · have hcast : castingToFloat (rawInts t raw) (.one (.int s)) (.one (.int o)) = false := rfl
    cases ft <;> simp only [Bool.false_and, Bool.false_eq_true, if_false, hcast, key]
  · simp only [Factor.isNum, Num.val, Bool.and_eq_true, not_and]
    intro _ h
    have : o = 0 := by exact_mod_cast of_decide_eq_true h
    omega

/-- **C56 (negative offsets, no 0 in the array).** With factor 1, if the smallest element `m` times the offset is from -129
to -2, the array is made int8 first, and every element becomes the low eight bits of value plus offset: wrong for every
value above 127 - offset. -/
theorem C56_negative_offset_int8 (E : Env) (hE : E.prom = nep50) (t : IntType)
    (ht : t = uint8 ∨ t = uint16 ∨ t = uint32 ∨ t = uint64) (raw : List (List Int)) (m : Int) (hm : m ∈ raw.flatten)
    (hmin : ∀ x ∈ raw.flatten, m ≤ x) (o : Int) (ho : o < 0) (ho' : -128 ≤ o) (h1 : -129 ≤ m * o) (h2 : m * o ≤ -2)
    (ft : Option FloatType) :
    scaleBy E (rawInts t raw) (.one (.int 1)) (.one (.int o)) false ft =
      .ok (raw.map (·.map fun x => (some ((wrap int8 (x + o) : Int) : ℚ), false))) := by
  have hlo0 : lo t = 0 := by rcases ht with rfl | rfl | rfl | rfl <;> rfl
  obtain ⟨M, hM, hchoice⟩ := fit_choice raw o 1 m hm hmin
  have hMm : m ≤ M := hM m hm
  have hMo : M * o ≤ m * o := by nlinarith
  have hc : candidates.find? (fun c => decide (lo c ≤ m * o + 1) && decide (M * o + 1 ≤ hi c)) = some int8 := by
    have n8 : ¬ lo uint8 ≤ m * o + 1 := by show ¬ (0 ≤ _); omega
    have n16 : ¬ lo uint16 ≤ m * o + 1 := by show ¬ (0 ≤ _); omega
    have n32 : ¬ lo uint32 ≤ m * o + 1 := by show ¬ (0 ≤ _); omega
    have n64 : ¬ lo uint64 ≤ m * o + 1 := by show ¬ (0 ≤ _); omega
    have y1 : lo int8 ≤ m * o + 1 := by show -128 ≤ _; omega
    have y2 : M * o + 1 ≤ hi int8 := by show _ ≤ 127; omega
    simp [candidates, n8, n16, n32, n64, y1, y2]
  have hfit := hchoice int8 hc
  have hne : ¬ ((Factor.isNum 1 (.one (.int 1)) && Factor.isNum 0 (.one (.int o))) = true) := by
    simp only [Factor.isNum, Num.val, Bool.and_eq_true, not_and]
    intro _ h
    have : o = 0 := by exact_mod_cast of_decide_eq_true h
    omega
  have e1 : copyScale E (rawInts t raw) (.one (.int o)) (.one (.int 1)) = .error .overflowError := by
    simp only [copyScale, rawInts]
    rw [mulAdd_overflow E hE _ _ _ _ (.inr (fun h => by have := h.1; omega))]
    rfl
  have e3 : copyScale E (rawInts int8 (raw.map (·.map (wrap int8)))) (.one (.int o)) (.one (.int 1)) =
      .ok (raw.map (·.map fun x => (some ((wrap int8 (x + o) : Int) : ℚ), false))) := by
    unfold copyScale
    simp only []
    rw [mulAdd_wraps E hE int8 _ 1 o ⟨by decide, by decide⟩ ⟨ho', by show o ≤ 127; omega⟩]
    simp only [Except.map, Arr.values, List.map_map]
    congr 1
    apply List.map_congr_left
    intro l _
    simp only [Function.comp_apply, List.map_map]
    apply List.map_congr_left
    intro x _
    simp [wrap_wrap_add]
  have key : overflowWrap (copyScale E) (rawInts t raw) (.one (.int o)) (.one (.int 1)) =
      .ok (raw.map (·.map fun x => (some ((wrap int8 (x + o) : Int) : ℚ), false))) := by
    unfold overflowWrap
    rw [e1]
    simp only [rawInts] at hfit e3 ⊢
    simp only [hfit, e3]
  unfold scaleBy
  rw [if_neg hne]
  have hcast : castingToFloat (rawInts t raw) (.one (.int 1)) (.one (.int o)) = false := rfl
  cases ft <;> simp only [Bool.false_and, Bool.false_eq_true, if_false, hcast, key]

/-- **C57 (float32 and the constants of the label).** A constant in the label that float32 does not hold exactly masks
nothing in a float32 array: the result is the one without that entry. -/
theorem C57_float32_constant (E : Env) (block : Block) (hb : NoEmptyConstant block)
    (raw : List (List (Option ℚ))) (s o : Num) (hrep : ∀ x, some x ∈ raw.flatten → Rep single x)
    (hs : readFactor 1 (block sScale) = .ok (.one s)) (ho : readFactor 0 (block sOffset) = .ok (.one o))
    (hfs : Rep single s.val) (hfo : Rep single o.val)
    (hfit : ∀ x, some x ∈ raw.flatten → ¬ SpecialFloat block .f32 raw x →
      Rep single (x * s.val) ∧ Rep single (x * s.val + o.val)) (ft : Option FloatType)
    (n : Str) (hn : n ∈ constantNames) (v : Num) (hv : block n = some (.num v)) (hnot : ¬ Rep single v.val) :
    getScaled E .pds3 false block (rawFloats .f32 raw) none false ft =
      getScaled E .pds3 false (fun k => if k = n then none else block k) (rawFloats .f32 raw) none false ft := by
  let block' : Block := fun k => if k = n then none else block k
  have hb' : NoEmptyConstant block' := by
    intro k hk h
    by_cases hkn : k = n
    · simp [block', hkn] at h
    · simp only [block', hkn, if_false] at h
      exact hb k hk h
  have hsc : sScale ∉ constantNames ∧ sOffset ∉ constantNames := by decide +kernel
  have h1 : block' sScale = block sScale := by
    simp only [block']
    rw [if_neg (fun h : sScale = n => hsc.1 (h ▸ hn))]
  have h2 : block' sOffset = block sOffset := by
    simp only [block']
    rw [if_neg (fun h : sOffset = n => hsc.2 (h ▸ hn))]
  have hdecl : ∀ x, Rep single x → ∀ k, Declares block k x ↔ Declares block' k x := by
    intro x hx k
    unfold Declares
    by_cases hkn : k = n
    · subst hkn
      simp only [hv, block', if_true]
      constructor
      · rintro ⟨w, hw | ⟨vs, hw⟩, he⟩
        · injection hw with hw; injection hw with hw
          subst hw
          exact absurd (he ▸ hx) hnot
        · injection hw with hw; cases hw
      · rintro ⟨w, hw | ⟨vs, hw⟩, he⟩ <;> cases hw
    · simp only [block', hkn, if_false]
  have hspec : ∀ x, Rep single x → (SpecialFloat block .f32 raw x ↔ SpecialFloat block' .f32 raw x) := by
    intro x hx
    unfold SpecialFloat
    simp only [hdecl x hx]
  rw [C14_get_scaled_floats E block hb .f32 raw s o hrep hs ho hfs hfo hfit ft,
    C14_get_scaled_floats E block' hb' .f32 raw s o hrep (h1 ▸ hs) (h2 ▸ ho) hfs hfo
      (fun x hx hno => hfit x hx (fun h => hno ((hspec x (hrep x hx)).1 h))) ft]
  congr 1
  apply List.map_congr_left
  intro l hl
  apply List.map_congr_left
  intro w hw
  cases w with
  | none => rfl
  | some x =>
    have hx := List.mem_flatten.2 ⟨l, hl, hw⟩
    simp only [floatResult]
    by_cases hsp : SpecialFloat block .f32 raw x
    · rw [if_pos hsp, if_pos ((hspec x (hrep x hx)).1 hsp)]
    · rw [if_neg hsp, if_neg (fun h => hsp ((hspec x (hrep x hx)).2 h))]

/-- **C57 (the values for N/A).** Without constants in the label: the float32 number nearest to -1e32, and the int32
-2147483648, which the PDS3 standard has for "not applicable", are not masked; -214743648 is. -/
theorem C57_not_applicable (R' : Rounding single) (block : Block) (h : ∀ n ∈ constantNames, block n = none)
    (rawF : List (List (Option ℚ))) (raw : List (List Int)) :
    ¬ SpecialFloat block .f32 rawF (R'.fl (-10 ^ 32)) ∧ ¬ SpecialInt block int32 raw (-2147483648) ∧
      SpecialInt block int32 raw (-214743648) := by
  have hd : ∀ n ∈ constantNames, ∀ x, ¬ Declares block n x := by
    rintro n hn x ⟨v, hv | ⟨vs, hv⟩, _⟩ <;> rw [h n hn] at hv <;> cases hv
  refine ⟨?_, ?_, .inr (by simp [implicitValues, int32])⟩
  · rintro (⟨n, hn, hx, _⟩ | hx)
    · exact hd n hn _ hx
    · have hle : |R'.fl (-10 ^ 32) - -10 ^ 32| ≤ |(0 : ℚ) - -10 ^ 32| :=
        R'.nearest _ _ ⟨0, 0, by norm_num [single], by norm_num [single], by norm_num [single], by norm_num⟩
      rw [show |(0 : ℚ) - -10 ^ 32| = 10 ^ 32 by norm_num, abs_le] at hle
      simp only [implicitFloats, List.mem_cons, List.not_mem_nil, or_false] at hx
      rcases hx with hx | hx | hx | hx | hx <;> rw [hx] at hle <;> norm_num at hle
  · rintro (⟨n, hn, hx, _⟩ | hx)
    · exact hd n hn _ hx
    · simp [implicitValues, int32] at hx

/-- **C57 (NULL).** If a uint16 array has a 0, the value the label declares for `NULL`, and no other constant, is not a
special constant, unless pdr has it as one for every uint16 array. -/
theorem C57_null (block : Block) (raw : List (List Int)) (h0 : 0 ∈ raw.flatten) (c : Int)
    (hc : ∀ n ∈ constantNames, n ≠ sNULL → ¬ Declares block n c) (hi : c ∉ implicitValues uint16) :
    ¬ SpecialInt block uint16 raw c := by
  rintro (⟨n, hn, hd, hno⟩ | h)
  · by_cases hnn : n = sNULL
    · exact hno ⟨hnn, rfl, h0⟩
    · exact hc n hn hnn hd
  · exact hi h

/-- **C57 (uint64).** PDS3 arrays of unsigned 64-bit integers cannot be scaled at all. -/
theorem C57_uint64 (E : Env) (block : Block) (hb : NoEmptyConstant block) (raw : List (List Int)) (inplace : Bool)
    (ft : Option FloatType) :
    getScaled E .pds3 false block (rawInts uint64 raw) none inplace ft = .error .keyError := by
  obtain ⟨L, hL, _⟩ := explicit_ok block hb
  have : findSpecials E block (rawInts uint64 raw) = .error .keyError := by
    unfold findSpecials
    rw [hL]
    rfl
  simp only [getScaled, Bool.false_eq_true, if_false, this, bind, Except.bind]

/-! ### examples -/

/-- NumPy's rule for masked arrays: the integer is an int64 array, and the result is int64. -/
def maskedProm (t : IntType) (n : Int) : Except PyErr IntType :=
  if lo int64 ≤ n ∧ n ≤ hi int64 then .ok (if t = uint64 then uint64 else if lo int64 ≤ lo t ∧ hi t ≤ hi int64 then int64 else t)
    else nep50 t n

example : ∃ E : Env, Promotes E := by
  obtain ⟨R⟩ := rounding_exists double (by decide)
  obtain ⟨R'⟩ := rounding_exists single (by decide)
  exact ⟨_, nep50_promotes R R'⟩

example (R : Rounding double) (R' : Rounding single) : Promotes ⟨R, R', maskedProm, true⟩ := by
  intro t n h1 h2
  show ∃ t', maskedProm t n = .ok t' ∧ _
  unfold maskedProm
  split
  · split
    · rename_i h; subst h
      exact ⟨uint64, rfl, le_refl _, le_refl _, id⟩
    · split
      · rename_i h
        exact ⟨int64, rfl, h.1, h.2, fun _ => by decide⟩
      · exact ⟨t, rfl, le_refl _, le_refl _, id⟩
  · exact ⟨t, by simp [nep50, h1, h2], le_refl _, le_refl _, id⟩

/-- a label with factor 3, offset -7 and MISSING_CONSTANT -999 -/
def exBlock : Block := fun n =>
  if n = sScale then some (.num (.int 3))
  else if n = sOffset then some (.quantity (.num (.int (-7))))
  else if n = "MISSING_CONSTANT".toList then some (.num (.int (-999)))
  else none

theorem exBlock_ok : NoEmptyConstant exBlock := by
  intro n _
  unfold exBlock
  repeat' split
  all_goals (intro h; cases h)

/-- the hypotheses of `C14_get_scaled` can be met: 10 and 20 are scaled, -999 and -32768 are masked -/
example (R : Rounding double) (R' : Rounding single) :
    getScaled ⟨R, R', nep50, false⟩ .pds3 false exBlock (rawInts int16 [[10, -999], [-32768, 20]]) none false none =
      .ok [[(some 23, false), (some (-999), true)], [(some (-32768), true), (some 53, false)]] := by
  have hmc : "MISSING_CONSTANT".toList ∈ constantNames ∧ sScale ∉ constantNames ∧ sOffset ∉ constantNames := by decide +kernel
  have hno : ∀ x : Int, x ≠ -999 → x ∉ implicitValues int16 → ¬ SpecialInt exBlock int16 [[10, -999], [-32768, 20]] x := by
    rintro x hx hi (⟨n, hn, ⟨v, hv, he⟩, _⟩ | h)
    · unfold exBlock at hv
      rw [if_neg (fun h : n = sScale => hmc.2.1 (h ▸ hn)), if_neg (fun h : n = sOffset => hmc.2.2 (h ▸ hn))] at hv
      split at hv
      · rcases hv with hv | ⟨vs, hv⟩
        · injection hv with hv; injection hv with hv
          subst hv
          have he' : (x : ℚ) = ((-999 : Int) : ℚ) := he.symm
          exact hx (by exact_mod_cast he')
        · injection hv with hv; cases hv
      · rcases hv with hv | ⟨vs, hv⟩ <;> cases hv
    · exact hi h
  have hd : Declares exBlock "MISSING_CONSTANT".toList ((-999 : Int) : ℚ) := by
    refine ⟨.int (-999), .inl ?_, rfl⟩
    unfold exBlock
    rw [if_neg (by decide), if_neg (by decide), if_pos rfl]
  have y1 : SpecialInt exBlock int16 [[10, -999], [-32768, 20]] (-999) :=
    .inl ⟨_, hmc.1, hd, by rintro ⟨h, _⟩; exact absurd h (by decide)⟩
  have y2 : SpecialInt exBlock int16 [[10, -999], [-32768, 20]] (-32768) := .inr (by simp [implicitValues, int16])
  have n1 := hno 10 (by decide) (by decide)
  have n2 := hno 20 (by decide) (by decide)
  have := C14_get_scaled ⟨R, R', nep50, false⟩ (nep50_promotes R R') exBlock exBlock_ok int16 (by decide)
    [[10, -999], [-32768, 20]] 3 (-7) (by simp [exBlock, readFactor]) (by simp [exBlock, readFactor, sScale, sOffset])
    ⟨by decide, by decide⟩ ⟨by decide, by decide⟩ (by
      intro x hx hns
      simp only [List.flatten_cons, List.flatten_nil, List.append_nil, List.cons_append, List.nil_append, List.mem_cons,
        List.not_mem_nil, or_false] at hx
      rcases hx with rfl | rfl | rfl | rfl
      · exact ⟨⟨by decide, by decide⟩, ⟨by decide, by decide⟩⟩
      · exact absurd y1 hns
      · exact absurd y2 hns
      · exact ⟨⟨by decide, by decide⟩, ⟨by decide, by decide⟩⟩) none
  rw [this]
  simp only [List.map_cons, List.map_nil, if_pos y1, if_pos y2, if_neg n1, if_neg n2]
  norm_num

/-- an unsigned array with a small positive minimum: 200 - 5 becomes -61 -/
example (R : Rounding double) (R' : Rounding single) :
    scaleBy ⟨R, R', nep50, false⟩ (rawInts uint8 [[1, 200]]) (.one (.int 1)) (.one (.int (-5))) false none =
      .ok [[(some (-4), false), (some (-61), false)]] := by
  rw [C56_negative_offset_int8 ⟨R, R', nep50, false⟩ rfl uint8 (.inl rfl) [[1, 200]] 1 (by simp) (by simp) (-5)
    (by norm_num) (by norm_num) (by norm_num) (by norm_num)]
  norm_num [wrap, lo, int8]

/-- float64: a NaN, a value to scale by 1/2 -/
example (R : Rounding double) (R' : Rounding single) :
    scaleBy ⟨R, R', nep50, false⟩ (.f64 [[(some 3, false), (none, true)]]) (.one (.float (1 / 2))) (.one (.int 4)) false none =
      .ok [[(some (11 / 2), false), (none, true)]] := by
  rw [(C14_floats ⟨R, R', nep50, false⟩ (.float (1 / 2)) (.int 4) [[(some 3, false), (none, true)]] none).1]
  · norm_num [fscaled, Num.val]
  · exact ⟨1, -1, by norm_num [double], by norm_num [double], by norm_num [double], by norm_num [Num.val]⟩
  · exact ⟨4, 0, by norm_num [double], by norm_num [double], by norm_num [double], by norm_num [Num.val]⟩
  · intro l hl e he x hx
    simp only [List.mem_singleton] at hl
    subst hl
    simp only [List.mem_cons, List.not_mem_nil, or_false] at he
    rcases he with rfl | rfl
    · simp only [Prod.mk.injEq, Option.some.injEq, and_true] at hx
      subst hx
      refine ⟨⟨3, -1, by norm_num [double], by norm_num [double], by norm_num [double], by norm_num [Num.val]⟩,
        ⟨11, -1, by norm_num [double], by norm_num [double], by norm_num [double], by norm_num [Num.val]⟩⟩
    · simp at hx
end Verif.Scaling
