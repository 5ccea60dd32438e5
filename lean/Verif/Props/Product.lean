/-
C119, C120: tables and images of PDS3 products, from the label to the values.
-/
import Verif.Model.Product
import Verif.Spec.Product
import Verif.Props.Metadata
import Verif.Props.Locate
import Verif.Props.Label
import Verif.Props.BitTable
import Verif.Props.ObjectsPds3
import Verif.Props.ImageFile
import Verif.Props.Open

namespace Verif.Product
open Verif.Py Verif.Pvl Verif.Pvl.Spec Verif.Literal Verif.Format Verif.Format.Spec Verif.Meta.Spec Verif.Product.Spec

/-! ### fields -/

theorem field_has {b : MDict Val} {k : Str} {v : Val} (h : Has b k v) : field b k = some (.leaf v) := by
  obtain ⟨pre, post, rfl, hk⟩ := h
  unfold field
  rw [List.find?_append, List.find?_eq_none.2]
  · simp
  · intro e he hek
    exact hk (List.mem_map.2 ⟨e, he, by simpa using hek⟩)

theorem field_lacks {b : MDict Val} {k : Str} (h : Lacks b k) : field b k = none := by
  unfold field
  rw [List.find?_eq_none.2]
  · rfl
  · intro e he hek
    exact h (List.mem_map.2 ⟨e, he, by simpa using hek⟩)

theorem opt_lacks {α : Type} {conv : Val → Option α} {b : MDict Val} {k : Str} (h : Lacks b k) : optField conv b k = some none := by
  unfold optField; rw [field_lacks h]

theorem opt_has {α : Type} {conv : Val → Option α} {b : MDict Val} {k : Str} {v : Val} {a : α} (h : Has b k v) (hc : conv v = some a) :
    optField conv b k = some (some a) := by
  unfold optField; rw [field_has h]; simp [hc]

theorem req_has {α : Type} {conv : Val → Option α} {b : MDict Val} {k : Str} {v : Val} {a : α} (h : Has b k v) (hc : conv v = some a) :
    reqField conv b k = some a := by
  unfold reqField; rw [opt_has h hc]; rfl

theorem toStr_str (s : Str) : toStr (.str s) = some s := rfl
theorem toInt_int (n : Int) : toInt (.int n) = some n := rfl
theorem toNat_nat (n : Nat) : toNat (.int n) = some n := by simp [toNat]

theorem opt_nat {b : MDict Val} {k : Str} {o : Option Nat} (h : OptNat b k o) : optField toNat b k = some o := by
  cases o with
  | none => exact opt_lacks h
  | some n => exact opt_has h (toNat_nat n)

theorem opt_int {b : MDict Val} {k : Str} {o : Option Int} (h : OptInt b k o) : optField toInt b k = some o := by
  cases o with
  | none => exact opt_lacks h
  | some n => exact opt_has h rfl

theorem opt_str {b : MDict Val} {k : Str} {o : Option Str} (h : OptStr b k o) : optField toStr b k = some o := by
  cases o with
  | none => exact opt_lacks h
  | some n => exact opt_has h rfl

theorem opt_num {R : Float.Rounding Float.double} {b : MDict Val} {k : Str} {o : Option Scaling.Num} (h : Number R b k o) :
    optField (toNum R) b k = some o := by
  match o, h with
  | none, h => exact opt_lacks h
  | some (.int n), h => exact opt_has h rfl
  | some (.float x), h =>
    obtain ⟨q, h1, rfl⟩ := h
    exact opt_has h1 rfl

theorem loc_nat {b : MDict Val} {k : Str} {o : Option Nat} (h : OptNat b k o) :
    optField toLoc b k = some (o.map (fun n => Locate.Val.int n)) := by
  cases o with
  | none => exact opt_lacks h
  | some n => exact opt_has h rfl

theorem loc_int {b : MDict Val} {k : Str} {o : Option Int} (h : OptInt b k o) :
    optField toLoc b k = some (o.map (fun n => Locate.Val.int n)) := by
  cases o with
  | none => exact opt_lacks h
  | some n => exact opt_has h rfl

theorem has_lacks {b : MDict Val} {k : Str} (h : Lacks b k) : has b k = false := by
  unfold has; rw [field_lacks h]; rfl

/-! ### format files -/

open Verif.Objects in
theorem struct_no {k : Str} (h : ¬ ToFormatFile k) : structurePointer k = false := by
  cases hx : structurePointer k with
  | false => rfl
  | true => exact absurd ((structurePointer_iff k).1 hx) h

open Verif.Objects in
theorem struct_yes {k : Str} (h : ToFormatFile k) : structurePointer k = true := (structurePointer_iff k).2 h

theorem unwrap_contents {files : Files} {v : Val} {c : MDict Val} (h : Contents files v c) : (files v).bind unwrap = some c := by
  cases h with
  | table h1 h2 => rw [h1, Option.bind_some, unwrap, if_pos ((Datatypes.contains_iff _ _).2 h2)]
  | all h1 h2 =>
    rw [h1, Option.bind_some]
    match c, h2 with
    | [], _ => rfl
    | [(k, .node kids)], h2 => rw [unwrap, if_neg (fun hx => h2 _ _ rfl ((Datatypes.contains_iff _ _).1 hx))]
    | [(k, .leaf w)], h2 => rw [unwrap, if_neg (fun hx => h2 _ _ rfl ((Datatypes.contains_iff _ _).1 hx))]
    | (_, .node _) :: _ :: _, _ => rfl
    | (_, .leaf _) :: _ :: _, _ => rfl

theorem inject_keep {files : Files} {k : Str} {t : Pvl.Tree Val} (h : Objects.structurePointer k = false) :
    injectEntry files (k, t) = some [(k, t)] := by
  cases t <;> simp [injectEntry, h]

theorem inject_file {files : Files} {k : Str} {v : Val} {c : MDict Val} (h : ToFormatFile k) (hc : Contents files v c) :
    injectEntry files (k, .leaf v) = some c := by
  simp only [injectEntry, struct_yes h, if_true, unwrap_contents hc]

theorem inject_cons (files : Files) (e : Str × Pvl.Tree Val) (rest : MDict Val) :
    inject files (e :: rest) = (injectEntry files e).bind (fun c => (inject files rest).map (fun r => c ++ r)) := by
  unfold inject
  rw [List.mapM_cons]
  cases injectEntry files e with
  | none => rfl
  | some c =>
    simp only [Option.bind_eq_bind, Option.bind_some]
    cases rest.mapM (injectEntry files) <;> rfl

theorem inject_append (files : Files) (a b : MDict Val) :
    inject files (a ++ b) = (inject files a).bind (fun x => (inject files b).map (fun y => x ++ y)) := by
  induction a with
  | nil =>
    show inject files b = (some []).bind _
    cases inject files b <;> rfl
  | cons e a ih =>
    rw [List.cons_append, inject_cons, ih, inject_cons]
    cases injectEntry files e with
    | none => rfl
    | some c =>
      cases inject files a with
      | none => rfl
      | some x =>
        cases inject files b with
        | none => rfl
        | some y => simp

theorem injected_inject {files : Files} {b d : MDict Val} (h : Injected files b d) : inject files b = some d := by
  induction h with
  | nil => rfl
  | keep h _ ih => rw [inject_cons, inject_keep (struct_no h), ih]; rfl
  | file h hc _ ih => rw [inject_cons, inject_file h hc, ih]; rfl

/-- no pointers to format files -/
def Free (b : MDict Val) : Prop := b.any (fun e => Objects.structurePointer e.1) = false

theorem free_inject {files : Files} {b : MDict Val} (h : Free b) : inject files b = some b := by
  induction b with
  | nil => rfl
  | cons e b ih =>
    unfold Free at h
    rw [List.any_cons, Bool.or_eq_false_iff] at h
    rw [inject_cons, show e = (e.1, e.2) from rfl, inject_keep h.1, ih h.2]
    rfl

/-- so many rounds -/
def rounds (files : Files) : Nat → MDict Val → Option (MDict Val)
  | 0, b => some b
  | n + 1, b => (inject files b).bind (rounds files n)

theorem rounds_append (files : Files) (n : Nat) (a b : MDict Val) :
    rounds files n (a ++ b) = (rounds files n a).bind (fun x => (rounds files n b).map (fun y => x ++ y)) := by
  induction n generalizing a b with
  | zero => rfl
  | succ n ih =>
    simp only [rounds]
    rw [inject_append]
    cases inject files a with
    | none => rfl
    | some x =>
      cases inject files b with
      | none =>
        simp only [Option.map_none, Option.bind_some, Option.bind_none]
        cases rounds files n x <;> rfl
      | some y =>
        simp only [Option.map_some, Option.bind_some]
        exact ih x y

theorem rounds_free (files : Files) (n : Nat) {b : MDict Val} (h : Free b) : rounds files n b = some b := by
  induction n with
  | zero => rfl
  | succ n ih => simp only [rounds]; rw [free_inject h]; exact ih

theorem rounds_all (files : Files) (n : Nat) (b out : MDict Val) (h : rounds files n b = some out) (hf : Free out) :
    injectAll files n b = some out := by
  induction n generalizing b with
  | zero =>
    cases h
    unfold injectAll
    rw [hf]
    rfl
  | succ n ih =>
    unfold injectAll
    cases hx : b.any (fun e => Objects.structurePointer e.1) with
    | false =>
      rw [rounds_free files _ hx] at h
      simpa using h
    | true =>
      simp only [if_true]
      simp only [rounds] at h
      cases hi : inject files b with
      | none => rw [hi] at h; cases h
      | some b' =>
        rw [hi] at h
        exact ih b' h

/-- a block with all its format files -/
inductive Expands (files : Files) : MDict Val → MDict Val → Prop
  | nil : Expands files [] []
  | keep {k : Str} {t : Pvl.Tree Val} {rest out : MDict Val} : ¬ ToFormatFile k → Expands files rest out →
      Expands files ((k, t) :: rest) ((k, t) :: out)
  | file {k : Str} {v : Val} {c rest x out : MDict Val} : ToFormatFile k → Contents files v c → Expands files c x →
      Expands files rest out → Expands files ((k, .leaf v) :: rest) (x ++ out)

theorem expands_split {files : Files} (a : MDict Val) {b out : MDict Val} (h : Expands files (a ++ b) out) :
    ∃ x y, out = x ++ y ∧ Expands files a x ∧ Expands files b y := by
  induction a generalizing out with
  | nil => exact ⟨[], out, rfl, .nil, h⟩
  | cons e a ih =>
    cases h with
    | keep h1 h2 =>
      obtain ⟨x, y, rfl, hx, hy⟩ := ih h2
      exact ⟨_ :: x, y, rfl, .keep h1 hx, hy⟩
    | @file k v c rest z out h1 h2 h3 h4 =>
      obtain ⟨x, y, rfl, hx, hy⟩ := ih h4
      exact ⟨z ++ x, y, by rw [List.append_assoc], .file h1 h2 h3 hx, hy⟩

theorem expands_rounds {files : Files} {b out : MDict Val} (h : Expands files b out) :
    Free out ∧ ∃ N, ∀ n ≥ N, rounds files n b = some out := by
  induction h with
  | nil => exact ⟨rfl, 0, fun n _ => rounds_free files n rfl⟩
  | @keep k t rest out h _ ih =>
    obtain ⟨hf, N, hN⟩ := ih
    have h1 : Free [(k, t)] := by simp [Free, struct_no h]
    refine ⟨?_, N, ?_⟩
    · unfold Free at *
      rw [List.any_cons, hf, Bool.or_false]
      exact struct_no h
    · intro n hn
      rw [show (k, t) :: rest = [(k, t)] ++ rest from rfl, rounds_append, rounds_free files n h1, hN n hn]
      rfl
  | @file k v c rest x out h hc _ _ ih1 ih2 =>
    obtain ⟨hf1, N1, hN1⟩ := ih1
    obtain ⟨hf2, N2, hN2⟩ := ih2
    refine ⟨?_, max N1 N2 + 1, ?_⟩
    · unfold Free at *
      rw [List.any_append, hf1, hf2]
      rfl
    · intro n hn
      obtain ⟨m, rfl⟩ : ∃ m, n = m + 1 := ⟨n - 1, by omega⟩
      rw [show (k, Pvl.Tree.leaf v) :: rest = [(k, .leaf v)] ++ rest from rfl, rounds_append, hN2 (m + 1) (by omega)]
      have : rounds files (m + 1) [(k, Pvl.Tree.leaf v)] = some x := by
        simp only [rounds]
        rw [inject_cons, inject_file h hc]
        show ((some (c ++ [])).bind (rounds files m)) = _
        rw [List.append_nil]
        exact hN1 m (by omega)
      rw [this]
      rfl

/-! ### definitions -/

theorem bit_def {b : MDict Val} {d : Bits.BitDef} (h : BitSays b d) : bitDef (.node b) = some d := by
  unfold bitDef
  simp only
  rw [opt_str h.name, opt_int h.items, opt_int h.itemBits, opt_int h.startBit, opt_int h.bits]
  rfl

theorem bit_columns {b : MDict Val} {ds : List Bits.BitDef} (h : BitColumns b ds) :
    (b.filter (fun e => e.1 == c!"BIT_COLUMN")).mapM (fun e => bitDef e.2) = some ds := by
  induction h with
  | nil => rfl
  | skip h _ ih => rw [List.filter_cons_of_neg (by simpa using h)]; exact ih
  | column h _ ih => rw [List.filter_cons_of_pos (by rfl), List.mapM_cons, bit_def h, ih]; rfl

theorem bits_say {b : MDict Val} {o : Option Bits.BitObj} (h : BitsSay b o) : bitObj b = some o := by
  cases o with
  | none =>
    have : b.filter (fun e => e.1 == c!"BIT_COLUMN") = [] := by
      rw [List.filter_eq_nil_iff]
      intro e he hx
      exact h (List.mem_map.2 ⟨e, he, by simpa using hx⟩)
    unfold bitObj
    rw [this]
  | some o =>
    obtain ⟨h0, h1, pre, kids, post, rfl, h2, h3⟩ := h
    have hp : pre.filter (fun e => e.1 == c!"BIT_COLUMN") = [] := by
      rw [List.filter_eq_nil_iff]
      intro e he hx
      exact h2 (List.mem_map.2 ⟨e, he, by simpa using hx⟩)
    have hb := bit_columns h1
    unfold bitObj
    rw [List.filter_append, hp, List.nil_append, List.filter_cons_of_pos (by rfl)] at hb ⊢
    simp only
    rw [hb]
    simp only [Option.bind_eq_bind, Option.bind_some, bitType]
    rw [opt_str h3]
    obtain ⟨ds, ty, ls⟩ := o
    simp only at h0
    subst h0
    rfl

theorem column_text {files : Files} {b d : MDict Val} (h : ColumnText files b d) : columnText files b = some d := by
  unfold columnText
  cases h with
  | plain h => rw [has_lacks h]; rfl
  | files h hi =>
    have : has b c!"^STRUCTURE" = true := by
      unfold has field
      cases hx : b.find? (fun e => e.1 == c!"^STRUCTURE") with
      | some e => rfl
      | none =>
        exfalso
        apply h
        intro hm
        obtain ⟨e, he, hk⟩ := List.mem_map.1 hm
        have := List.find?_eq_none.1 hx e he
        simp [hk] at this
    rw [this]
    exact injected_inject hi

theorem column_says {R : Float.Rounding Float.double} {files : Files} {b d : MDict Val} {c : Col} (ht : ColumnText files b d)
    (h : ColumnSays R d c) : columnDef R files b = some c.toDef := by
  unfold columnDef
  rw [column_text ht]
  simp only [Option.bind_eq_bind, Option.bind_some]
  rw [has_lacks h.noElements]
  simp only [Bool.false_eq_true, if_false]
  rw [req_has h.name (toStr_str _), req_has h.start (toInt_int _), req_has h.bytes (toNat_nat _), opt_nat h.items, opt_nat h.itemBytes, opt_nat h.itemOffset,
    req_has h.dataType (toStr_str _), opt_num h.scale, opt_num h.offset, bits_say h.bits]
  rfl

theorem entry_skip {R : Float.Rounding Float.double} {files : Files} {inner : MDict Val → Option (List Def)} {k : Str} {t : Pvl.Tree Val}
    (h1 : k ∉ structural) : entryDefs R files inner (k, t) = some [] := by
  simp only [structural, List.mem_cons, List.not_mem_nil, or_false, not_or] at h1
  obtain ⟨a1, a2, a3, a4, a5, a6, a7, a8⟩ := h1
  cases t with
  | leaf v =>
    rw [entryDefs, if_neg]
    simp [a1, a2, a3, a4, a5, a6, a7, a8]
  | node kids =>
    rw [entryDefs, if_neg (by simp [a3, a5, a6]), if_neg (by simp [a2, a4]), if_neg (by simp [a1, a7, a8])]

theorem entry_column {R : Float.Rounding Float.double} {files : Files} {inner : MDict Val → Option (List Def)} {k : Str} {b d : MDict Val}
    {c : Col} (h : k ∈ [c!"COLUMN", c!"FIELD", c!"ELEMENT"]) (ht : ColumnText files b d) (hc : ColumnSays R d c) :
    entryDefs R files inner (k, .node b) = some [c.toDef] := by
  rw [entryDefs, if_pos (List.contains_iff_mem.2 h), column_says ht hc]
  rfl

/-- the definitions of a list of entries -/
def defsFlat (R : Float.Rounding Float.double) (files : Files) (inner : MDict Val → Option (List Def)) (b : MDict Val) : Option (List Def) :=
  (b.mapM (entryDefs R files inner)).map List.flatten

theorem flat_cons (R : Float.Rounding Float.double) (files : Files) (inner : MDict Val → Option (List Def)) (e : Str × Pvl.Tree Val) (b : MDict Val)
    {ds es : List Def} (h1 : entryDefs R files inner e = some ds) (h2 : defsFlat R files inner b = some es) :
    defsFlat R files inner (e :: b) = some (ds ++ es) := by
  unfold defsFlat at *
  rw [List.mapM_cons, h1]
  cases hx : b.mapM (entryDefs R files inner) with
  | none => rw [hx] at h2; cases h2
  | some x =>
    rw [hx] at h2
    cases h2
    rfl

theorem not_structure {k : Str} (h : k ∈ [c!"COLUMN", c!"FIELD", c!"ELEMENT", c!"CONTAINER", c!"COLLECTION"]) : ¬ ToFormatFile k := by
  have : k.head? ≠ some '^' := by
    simp only [List.mem_cons, List.not_mem_nil, or_false] at h
    rcases h with rfl | rfl | rfl | rfl | rfl <;> decide
  rintro (rfl | ⟨w, _, _, rfl⟩) <;> exact this rfl

theorem columns_flat {R : Float.Rounding Float.double} {files : Files} {b : MDict Val} {cs : List Col} (h : Columns R files b cs) :
    ∃ b', Expands files b b' ∧ ∀ inner, defsFlat R files inner b' = some (cs.map Col.toDef) := by
  induction h with
  | nil => exact ⟨[], .nil, fun _ => rfl⟩
  | skip h1 h2 _ ih =>
    obtain ⟨b', e, hd⟩ := ih
    exact ⟨_, .keep h2 e, fun inner => flat_cons R files inner _ _ (entry_skip h1) (hd inner)⟩
  | file h1 h2 _ ih =>
    obtain ⟨b', e, hd⟩ := ih
    obtain ⟨x, y, rfl, ex, ey⟩ := expands_split _ e
    exact ⟨_, .file h1 h2 ex ey, hd⟩
  | column h1 h2 h3 _ ih =>
    obtain ⟨b', e, hd⟩ := ih
    refine ⟨_, .keep (not_structure ?_) e, fun inner => flat_cons R files inner _ _ (entry_column h1 h2 h3) (hd inner)⟩
    simp only [List.mem_cons, List.not_mem_nil, or_false] at h1 ⊢
    rcases h1 with h | h | h <;> simp [h]

theorem expands_all {files : Files} {b b' : MDict Val} (h : Expands files b b') : ∃ N, ∀ n ≥ N, injectAll files n b = some b' := by
  obtain ⟨hf, N, hN⟩ := expands_rounds h
  exact ⟨N, fun n hn => rounds_all files n b b' (hN n hn) hf⟩

theorem columns_defs {R : Float.Rounding Float.double} {files : Files} {b : MDict Val} {cs : List Col} (h : Columns R files b cs) :
    ∃ N, ∀ n ≥ N, defsOf R files n b = some (cs.map Col.toDef) := by
  obtain ⟨b', e, hd⟩ := columns_flat h
  obtain ⟨N, hN⟩ := expands_all e
  refine ⟨N + 1, fun n hn => ?_⟩
  obtain ⟨m, rfl⟩ : ∃ m, n = m + 1 := ⟨n - 1, by omega⟩
  rw [defsOf, hN m (by omega), Option.bind_some]
  exact hd _

theorem defines_flat {R : Float.Rounding Float.double} {files : Files} {b : MDict Val} {es : List Format.Spec.Entry} (h : Defines R files b es) :
    ∃ b', Expands files b b' ∧ ∃ N, ∀ n ≥ N, defsFlat R files (defsOf R files n) b' = some (es.map Entry.toDef) := by
  induction h with
  | nil => exact ⟨[], .nil, 0, fun _ _ => rfl⟩
  | skip h1 h2 _ ih =>
    obtain ⟨b', e, N, hd⟩ := ih
    exact ⟨_, .keep h2 e, N, fun n hn => flat_cons R files _ _ _ (entry_skip h1) (hd n hn)⟩
  | file h1 h2 _ ih =>
    obtain ⟨b', e, hd⟩ := ih
    obtain ⟨x, y, rfl, ex, ey⟩ := expands_split _ e
    exact ⟨_, .file h1 h2 ex ey, hd⟩
  | column h1 h2 h3 _ ih =>
    obtain ⟨b', e, N, hd⟩ := ih
    refine ⟨_, .keep (not_structure ?_) e, N, fun n hn => flat_cons R files _ _ _ (entry_column h1 h2 h3) (hd n hn)⟩
    simp only [List.mem_cons, List.not_mem_nil, or_false] at h1 ⊢
    rcases h1 with h | h | h <;> simp [h]
  | @container k b rest n s bytes r cs es h1 h2 h3 h4 h5 h6 _ ih =>
    obtain ⟨b', e, N, hd⟩ := ih
    obtain ⟨M, hM⟩ := columns_defs h6
    have hc : containerDef b (cs.map Col.toDef) = some (.container n s (some bytes) r (cs.map Col.toDef)) := by
      unfold containerDef
      rw [req_has h2 (toStr_str _), req_has h3 (toInt_int _), opt_has h4 (toNat_nat _), opt_nat h5]
      rfl
    refine ⟨_, .keep (not_structure ?_) e, max N M, fun m hm => ?_⟩
    · simp only [List.mem_cons, List.not_mem_nil, or_false] at h1 ⊢
      rcases h1 with h | h <;> simp [h]
    have he : entryDefs R files (defsOf R files m) (k, .node b) = some [.container n s (some bytes) r (cs.map Col.toDef)] := by
      rw [entryDefs, if_neg, if_pos (List.contains_iff_mem.2 h1), hM m (by omega)]
      · simp only [Option.bind_some, hc, Option.map_some]
      · intro hx
        have hx := List.contains_iff_mem.1 hx
        simp only [List.mem_cons, List.not_mem_nil, or_false] at h1 hx
        rcases h1 with rfl | rfl <;> rcases hx with hx | hx | hx <;> exact absurd hx (by decide)
    exact flat_cons R files _ _ _ he (hd m (by omega))

theorem defines_defs {R : Float.Rounding Float.double} {files : Files} {b : MDict Val} {es : List Format.Spec.Entry} (h : Defines R files b es) :
    ∃ N, ∀ n ≥ N, defsOf R files n b = some (es.map Entry.toDef) := by
  obtain ⟨b', e, M, hd⟩ := defines_flat h
  obtain ⟨N, hN⟩ := expands_all e
  refine ⟨max N M + 1, fun n hn => ?_⟩
  obtain ⟨m, rfl⟩ : ∃ m, n = m + 1 := ⟨n - 1, by omega⟩
  rw [defsOf, hN m (by omega), Option.bind_some]
  exact hd m (by omega)

theorem table_says {R : Float.Rounding Float.double} {files : Files} {b : MDict Val} {t : Table.Block} {es : List Format.Spec.Entry}
    (h : TableSays R files b t es) (hn : ¬ c!"HISTOGRAM" <:+: t.name) (hc : t.name ≠ c!"CONTAINER") :
    ∃ N, ∀ n ≥ N, tableBlock R files n t.name b = some t := by
  obtain ⟨N, hN⟩ := defines_defs h.columns
  refine ⟨N, fun n hge => ?_⟩
  unfold tableBlock
  have h1 : contains t.name c!"HISTOGRAM" = false := by
    cases hx : contains t.name c!"HISTOGRAM" with
    | false => rfl
    | true => exact absurd ((Datatypes.contains_iff _ _).1 hx) hn
  rw [h1, has_lacks h.once, show (t.name == c!"CONTAINER") = false from by simpa using hc]
  simp only [Bool.or_self, Bool.false_eq_true, if_false]
  rw [opt_str h.tableName, opt_nat h.bytes, opt_nat h.rows, opt_int h.rowBytes, opt_int h.rowPrefix, opt_int h.rowSuffix,
    opt_str h.interchange, hN n hge, ← h.defs]
  rfl

theorem image_says {name : Str} {b : MDict Val} {i : Image.ImageBlock} {t : Str} (h : ImageSays b i t) (hn : ¬ c!"QUBE" <:+: name) :
    imageBlock name b = some (i, t) := by
  unfold imageBlock
  have h1 : contains name c!"QUBE" = false := by
    cases hx : contains name c!"QUBE" with
    | false => rfl
    | true => exact absurd ((Datatypes.contains_iff _ _).1 hx) hn
  have h2 : b.any (fun e => endsWith e.1 c!"FIX_ITEM_BYTES") = false := by
    rw [List.any_eq_false]
    intro e he hx
    exact h.noPlanes e he ((Open.endsWith_iff _ _).1 hx)
  rw [h1, h2]
  simp only [Bool.or_self, Bool.false_eq_true, if_false]
  rw [req_has h.sampleBits (toNat_nat _), opt_has h.sampleType (toStr_str _), req_has h.lines (toNat_nat _), req_has h.lineSamples (toNat_nat _),
    opt_nat h.bands, opt_str h.storage, opt_nat h.linePrefix, opt_nat h.lineSuffix]
  rfl

/-! ### lookups -/

/-- the metadata after lookups -/
abbrev after (dict : MDict Val) (params : List Str) (ops : List (Meta.Op Val Locate.Val)) : State := Meta.run env (Meta.new dict params) ops

theorem first_mem {k : Str} {dict : MDict Val} {t : Pvl.Tree Val} (h : First k dict t) : k ∈ keys dict := by
  by_contra hk
  exact (Meta.C17_first_exists_unique k dict).2 hk t h

theorem after_get (dict : MDict Val) (params : List Str) (ops : List (Meta.Op Val Locate.Val)) (t : Str) (d : Locate.Val) (w : Bool) :
    (Meta.metaget env (after dict params ops) t d w).1 = after dict params (ops ++ [.get t d w]) := by
  unfold after Meta.run
  rw [List.foldl_append]
  rfl

theorem after_block (dict : MDict Val) (params : List Str) (ops : List (Meta.Op Val Locate.Val)) (t : Str) (w : Bool) :
    (Meta.metablock (after dict params ops) t w).1 = after dict params (ops ++ [.block t w]) := by
  unfold after Meta.run
  rw [List.foldl_append]
  rfl

variable {dict : MDict Val} {params : List Str} {ops : List (Meta.Op Val Locate.Val)}

theorem get_first (hp : ∀ k, k ∈ params ↔ k ∈ keys dict) (ho : ∀ o ∈ ops, o.isEdit = false) {t : Str} {d : Locate.Val} {w : Bool}
    {v : Pvl.Tree Val} (h : First t dict v) (hn : v ≠ .leaf .none) : (Meta.metaget env (after dict params ops) t d w).2.1 = .ok (.inl v) := by
  refine (Meta.C17_metaget env dict params ops ho t d w).2.1 ((hp t).2 (first_mem h)) rfl v h ?_
  cases v with
  | node kids => rfl
  | leaf a => cases a <;> first | rfl | exact absurd rfl hn

theorem get_absent (hp : ∀ k, k ∈ params ↔ k ∈ keys dict) (ho : ∀ o ∈ ops, o.isEdit = false) {t : Str} {d : Locate.Val} {w : Bool}
    (h : t ∉ keys dict) : (Meta.metaget env (after dict params ops) t d w).2.1 = .ok (.inr d) :=
  (Meta.C17_metaget env dict params ops ho t d w).1 (fun hx => h ((hp t).1 hx))

theorem record_bytes (hp : ∀ k, k ∈ params ↔ k ∈ keys dict) (ho : ∀ o ∈ ops, o.isEdit = false) :
    (∀ n : Int, First c!"RECORD_BYTES" dict (.leaf (.int n)) → recordBytes (after dict params ops) = some (.int n)) ∧
    (c!"RECORD_BYTES" ∉ keys dict → recordBytes (after dict params ops) = some (.str [])) := by
  constructor
  · intro n h
    unfold recordBytes
    rw [get_first hp ho h (by simp)]
    rfl
  · intro h
    unfold recordBytes
    rw [get_absent hp ho h]

theorem target_of (hp : ∀ k, k ∈ params ↔ k ∈ keys dict) (ho : ∀ o ∈ ops, o.isEdit = false) {name : Str} {kids : MDict Val} {v : Val}
    (h1 : First name dict (.node kids)) (h2 : First ('^' :: name) dict (.leaf v)) (hv : v ≠ .none) :
    getTarget (after dict params ops) name = toTarget v := by
  unfold getTarget
  simp only
  rw [get_first hp ho h1 (by simp), after_get]
  simp only
  rw [get_first hp (ops := ops ++ [Meta.Op.get name Locate.Val.none true]) ?_ h2 (by simpa using hv)]
  intro o hx
  rcases List.mem_append.1 hx with hx | hx
  · exact ho o hx
  · rw [List.mem_singleton.1 hx]; rfl

/-! ### places -/

theorem locBlock_ok {b : MDict Val} (h : Extent dict b) : ∃ blk : Locate.Blk, locBlock b = some blk ∧
    (∀ n : Nat, Has b c!"RECORD_BYTES" (.int n) → blk.recordBytes = some (.int n)) ∧ (Lacks b c!"RECORD_BYTES" → blk.recordBytes = none) ∧
    (∀ x ∈ [blk.recordBytes, blk.bytes, blk.records, blk.rows, blk.rowBytes, blk.rowSuffixBytes], x = none ∨ ∃ n, x = some (.int n)) := by
  have hx : ∀ k ∈ [c!"RECORD_BYTES", c!"BYTES", c!"RECORDS", c!"ROWS", c!"ROW_BYTES", c!"ROW_SUFFIX_BYTES"],
      ∃ o : Option Int, optField toLoc b k = some (o.map (fun n => Locate.Val.int n)) := by
    intro k hk
    obtain ⟨o, ho⟩ := h.numbers k hk
    exact ⟨o, loc_int ho⟩
  obtain ⟨o1, e1⟩ := hx c!"RECORD_BYTES" (by decide)
  obtain ⟨o2, e2⟩ := hx c!"BYTES" (by decide)
  obtain ⟨o3, e3⟩ := hx c!"RECORDS" (by decide)
  obtain ⟨o4, e4⟩ := hx c!"ROWS" (by decide)
  obtain ⟨o5, e5⟩ := hx c!"ROW_BYTES" (by decide)
  obtain ⟨o6, e6⟩ := hx c!"ROW_SUFFIX_BYTES" (by decide)
  refine ⟨⟨o1.map .int, o2.map .int, o3.map .int, o4.map .int, o5.map .int, o6.map .int⟩, ?_, ?_, ?_, ?_⟩
  · unfold locBlock
    rw [e1, e2, e3, e4, e5, e6]
    rfl
  · intro n hn
    have := opt_has (conv := toLoc) hn rfl
    rw [e1] at this
    exact Option.some.inj this
  · intro hn
    have := opt_lacks (conv := toLoc) hn
    rw [e1] at this
    exact Option.some.inj this
  · intro x hx
    simp only [List.mem_cons, List.not_mem_nil, or_false] at hx
    rcases hx with rfl | rfl | rfl | rfl | rfl | rfl
    · cases o1 <;> simp
    · cases o2 <;> simp
    · cases o3 <;> simp
    · cases o4 <;> simp
    · cases o5 <;> simp
    · cases o6 <;> simp

theorem place_item {r : Option Nat} {v : Val} {n : Nat} (h : Place r v n) (rb : Locate.Val) (blk : Locate.Blk) (size : Nat)
    (hr : ∀ k : Nat, r = some k → Locate.recordSize rb (some blk) = .int k) :
    ∃ i, toItem v = some i ∧ Locate.dataStartByte rb (some blk) (.item i) size = .ok n ∧ (∀ s, v ≠ .tuple s) ∧ (∀ s, v ≠ .list s) ∧ v ≠ .none := by
  cases h with
  | file => exact ⟨_, rfl, Locate.C12_file_name rb _ size _, by simp, by simp, by simp⟩
  | first => exact ⟨_, rfl, Locate.C12_first_place rb _ size, by simp, by simp, by simp⟩
  | @record n k h =>
    refine ⟨_, rfl, ?_, by simp, by simp, by simp⟩
    have := Locate.C12_record_pointer rb (some blk) size (n + 1 : Nat) k (hr k h) (by omega) (by omega)
    rw [this]
    simp
  | @records n k u h hu =>
    refine ⟨_, rfl, ?_, by simp, by simp, by simp⟩
    have := Locate.C12_record_quantity rb (some blk) size (n + 1 : Nat) k u (hr k h) (by omega) (by omega) hu
    rw [this]
    simp
  | bytes =>
    refine ⟨_, rfl, ?_, by simp, by simp, by simp⟩
    rw [Locate.C12_byte_quantity, if_pos (by omega)]
    simp

theorem starts_target {r : Option Nat} {v : Val} {n : Nat} (h : Starts r v n) (rb : Locate.Val) (blk : Locate.Blk) (size : Nat)
    (hr : ∀ k : Nat, r = some k → Locate.recordSize rb (some blk) = .int k) :
    v ≠ .none ∧ ∃ t, toTarget v = some t ∧ Locate.dataStartByte rb (some blk) t size = .ok n ∧ t ≠ .seq [] := by
  cases h with
  | place h =>
    obtain ⟨i, h1, h2, h3, h4, h5⟩ := place_item h rb blk size hr
    refine ⟨h5, .item i, ?_, h2, by simp⟩
    cases v <;> first | (simp only [toTarget, h1, Option.map_some]; done) | exact absurd rfl (h3 _) | exact absurd rfl (h4 _)
  | @inFile file v n h =>
    obtain ⟨i, h1, h2, h3, h4, h5⟩ := place_item h rb blk size hr
    refine ⟨by simp, .seq [.val (.str file), i], ?_, ?_, by simp⟩
    · simp only [toTarget, List.mapM_cons, List.mapM_nil, h1]
      rfl
    · have := Locate.C12_last_of_list rb (some blk) size [.val (.str file)] i
      rw [← h2, ← this]
      rfl

theorem position_ok {rb : Locate.Val} {rt name : Str} {blk : Locate.Blk} {t : Locate.Target} {start : Nat}
    (hb : ∀ x ∈ [blk.recordBytes, blk.bytes, blk.records, blk.rows, blk.rowBytes, blk.rowSuffixBytes], x = none ∨ ∃ n, x = some (.int n))
    (hrb : rb = .str [] ∨ ∃ n, rb = .int n) (ht : t ≠ .seq [])
    (hn : ¬ c!"ASCII" <:+: name ∧ ¬ c!"SPREADSHEET" <:+: name ∧ ¬ c!"HEADER" <:+: name) :
    ∃ p, Locate.tablePosition rb rt name (some blk) t start = .ok p := by
  have hc : ∀ x : Str, ¬ x <:+: name → contains name x = false := by
    intro x hx
    cases h : contains name x with
    | false => rfl
    | true => exact absurd ((Datatypes.contains_iff _ _).1 h) hx
  have hd : Locate.delimiterStream rb rt name t (some blk) = .ok false := by
    have hin : (if blk.bytes ≠ Option.none then (.ok false : Except PyErr Bool)
        else if ¬ (rb = .none ∨ rb = .str []) then .ok false
        else if rt ≠ c!"STREAM" then .ok false
        else .ok (contains name c!"ASCII" || contains name c!"SPREADSHEET" || contains name c!"HEADER")) = .ok false := by
      simp only [hc _ hn.1, hc _ hn.2.1, hc _ hn.2.2, Bool.or_self]
      split
      · rfl
      · split
        · rfl
        · split <;> rfl
    unfold Locate.delimiterStream
    match t, ht with
    | .item (.quantity _ u), _ =>
      simp only
      cases (u == c!"BYTES") with
      | true => rfl
      | false => exact hin
    | .item (.val _), _ => exact hin
    | .seq xs, ht =>
      cases hl : xs.getLast? with
      | none => exact absurd (by rw [List.getLast?_eq_none_iff.1 hl]) ht
      | some i =>
        simp only [hl]
        cases i with
        | val v => exact hin
        | quantity v u =>
          simp only
          cases (u == c!"BYTES") with
          | true => rfl
          | false => exact hin
  unfold Locate.tablePosition
  rw [if_neg (by omega), hd]
  simp only [Bool.false_eq_true, if_false]
  have hl : ∃ l, Locate.tableLength (some blk) rb (Locate.tableRecords (some blk)) = .ok l := by
    obtain ⟨a1, a2, a3, a4, a5, a6⟩ := blk
    simp only [List.mem_cons, List.not_mem_nil, or_false, forall_eq_or_imp, forall_eq] at hb
    obtain ⟨b1, b2, b3, b4, b5, b6⟩ := hb
    unfold Locate.tableLength Locate.tableRecords Locate.recordLength
    rcases b2 with rfl | ⟨n2, rfl⟩
    · rcases b3 with rfl | ⟨n3, rfl⟩ <;> rcases b4 with rfl | ⟨n4, rfl⟩ <;> rcases b1 with rfl | ⟨n1, rfl⟩ <;>
        rcases b5 with rfl | ⟨n5, rfl⟩ <;> rcases b6 with rfl | ⟨n6, rfl⟩ <;> rcases hrb with rfl | ⟨m, rfl⟩ <;>
        simp [Locate.addV, Locate.mulV]
    · exact ⟨_, rfl⟩
  obtain ⟨l, hl⟩ := hl
  rw [hl]
  simp only [hc _ hn.2.2, Bool.false_eq_true, and_false, if_false]
  exact ⟨_, rfl⟩

theorem locate_ok (hp : ∀ k, k ∈ params ↔ k ∈ keys dict) (ho : ∀ o ∈ ops, o.isEdit = false) {name : Str} {kids : MDict Val} {v : Val}
    {r : Option Nat} {start : Nat} (size : Nat)
    (h1 : First name dict (.node kids)) (h2 : First ('^' :: name) dict (.leaf v)) (hr : RecordSize dict kids r) (hs : Starts r v start)
    (hx : Extent dict kids) :
    ∃ blk rb t, locate (after dict params ops) name size = some (kids, blk, rb, t, .ok (start : Int)) ∧
      (∀ x ∈ [blk.recordBytes, blk.bytes, blk.records, blk.rows, blk.rowBytes, blk.rowSuffixBytes], x = none ∨ ∃ n, x = some (.int n)) ∧
      (rb = .str [] ∨ ∃ n, rb = .int n) ∧ t ≠ .seq [] := by
  obtain ⟨blk, b1, b2, b3, b4⟩ := locBlock_ok hx
  obtain ⟨r1, r2⟩ := record_bytes hp ho
  have hrb : ∃ rb, recordBytes (after dict params ops) = some rb ∧ (rb = .str [] ∨ ∃ n, rb = .int n) ∧
      ∀ k : Nat, r = some k → Locate.recordSize rb (some blk) = .int k := by
    have hw : ∃ rb, recordBytes (after dict params ops) = some rb ∧ (rb = .str [] ∨ ∃ n, rb = .int n) := by
      rcases hx.whole with h | ⟨n, h⟩
      · exact ⟨_, r2 h, Or.inl rfl⟩
      · exact ⟨_, r1 n h, Or.inr ⟨n, rfl⟩⟩
    cases hr with
    | @own n h =>
      obtain ⟨rb, w1, w2⟩ := hw
      refine ⟨rb, w1, w2, ?_⟩
      intro k hk
      cases hk
      exact (Locate.C12_record_size rb _ blk).1 (b2 n h)
    | @label n h h' =>
      refine ⟨_, r1 n h', Or.inr ⟨n, rfl⟩, ?_⟩
      intro k hk
      cases hk
      exact (Locate.C12_record_size (.int n) .none blk).2.1 (b3 h)
    | none h h' => exact ⟨_, r2 h', Or.inl rfl, by intro k hk; cases hk⟩
  obtain ⟨rb, w1, w2, w3⟩ := hrb
  obtain ⟨hv, t, t1, t2, t3⟩ := starts_target hs rb blk size w3
  refine ⟨blk, rb, t, ?_, b4, w2, t3⟩
  have hblock : (Meta.metablock (after dict params ops) name true).2.1 = some kids :=
    (Meta.C17_metablock env dict params ops ho name true).2.1 ((hp name).2 (first_mem h1)) kids h1
  have htarget : getTarget (Meta.metablock (after dict params ops) name true).1 name = some t := by
    rw [after_block, target_of hp (ops := ops ++ [Meta.Op.block name true]) ?_ h1 h2 hv, t1]
    intro o hx
    rcases List.mem_append.1 hx with hx | hx
    · exact ho o hx
    · rw [List.mem_singleton.1 hx]; rfl
  unfold locate
  simp only [w1, hblock, b1, htarget, t2, Option.bind_eq_bind, Option.bind_some]
  rfl

/-! ### tables -/

open Verif.Table Verif.Table.Spec Verif.Datatypes Verif.Datatypes.Spec in
/-- The table of a label is read as its block says, at the place where the label says it is; all format files are found in finitely
many rounds. -/
theorem table_read (ids : BitTable.Ids) (files : Files) (src : Source) (hp : ∀ k, k ∈ params ↔ k ∈ keys dict)
    (kids : MDict Val) (v : Val) (record : Option Nat) (start : Nat) (b : Table.Block) (es : List Format.Spec.Entry)
    (hblock : First b.name dict (.node kids)) (hptr : First ('^' :: b.name) dict (.leaf v))
    (hrec : RecordSize dict kids record) (hstart : Starts record v start) (hext : Extent dict kids)
    (hsays : TableSays src.R files kids b es)
    (hname : ¬ c!"ASCII" <:+: b.name ∧ ¬ c!"SPREADSHEET" <:+: b.name ∧ ¬ c!"HEADER" <:+: b.name ∧ ¬ c!"HISTOGRAM" <:+: b.name ∧ b.name ≠ c!"CONTAINER") :
    ∃ N, ∀ fuel ≥ N, ∀ ops, (∀ o ∈ ops, o.isEdit = false) →
      table ids files fuel src (after dict params ops) b.name = some (BitTable.readBitTable ids src b start) := by
  obtain ⟨N, hN⟩ := table_says hsays hname.2.2.2.1 hname.2.2.2.2
  refine ⟨N, fun fuel hf ops ho => ?_⟩
  obtain ⟨blk, rb, t, l1, l2, l3, l4⟩ := locate_ok hp ho src.file.length hblock hptr hrec hstart hext
  obtain ⟨p, hpos⟩ := position_ok (rt := recordType (after dict params ops)) (start := start) l2 l3 l4
    ⟨hname.1, hname.2.1, hname.2.2.1⟩
  unfold table
  rw [l1, Option.bind_eq_bind, Option.bind_some]
  simp only
  rw [hN fuel hf, Option.bind_eq_bind, Option.bind_some, hpos]
  simp only [Int.toNat_natCast]
  rfl

open Verif.Table Verif.Table.Spec Verif.Datatypes Verif.Datatypes.Spec in
/-- **C119 (tables).** If the first `name` of a label is a block that describes a binary table (columns, containers, row sizes, factors and
offsets, in the label or in format files), and the first `^name` says where it starts, then, after any lookups, loading `name` gives the
columns that the label names, with the values that are stored at the places that the label gives, scaled by its factors and offsets;
columns with BIT_COLUMNs hold the bits of these. -/
theorem C119_table (ids : BitTable.Ids) (files : Files) (src : Source) (hv : ReadsVax src.vax32) (dict : MDict Val) (params : List Str)
    (hp : ∀ k, k ∈ params ↔ k ∈ keys dict)
    (kids : MDict Val) (v : Val) (record : Option Nat) (start : Nat)
    (b : Table.Block) (first first' : Col) (rest rest' : List Format.Spec.Entry) (L R : Nat)
    (hblock : First b.name dict (.node kids)) (hptr : First ('^' :: b.name) dict (.leaf v))
    (hrec : RecordSize dict kids record) (hstart : Starts record v start) (hext : Extent dict kids)
    (hsays : TableSays src.R files kids b (.col first :: rest))
    (hread : List.Forall₂ (BitTable.Spec.EntryReadAs ids) (.col first :: rest) (.col first' :: rest'))
    (hbin : Binary { b with defs := (Entry.col first' :: rest').map Entry.toDef } first' rest' L)
    (hname : ¬ c!"HEADER" <:+: b.name ∧ ¬ c!"HISTOGRAM" <:+: b.name ∧ b.name ≠ c!"CONTAINER")
    (hR : b.rows.getD 1 = R) (hpos : (∃ s ∈ slots (b.rowPrefix.getD 0) (.col first' :: rest'), s.attrs.bits ≠ none) → 0 < R)
    (hfile : start + R * L ≤ src.file.length) (val : Nat → Nat → Value)
    (hplain : ∀ (k : Nat) s, (slots (b.rowPrefix.getD 0) (.col first' :: rest'))[k]? = some s → s.attrs.bits = none →
      (∀ r < R, Encodes src.cp500 s.attrs.dataType s.size (bytesAt src.file (start + r * L + s.off.toNat) s.size) (val r k)) ∧
      (s.attrs.scale = none ∧ s.attrs.offset = none ∨
        s.attrs.dataType ≠ c!"BOOLEAN" ∧ Native s.attrs.dataType ∧ factor s.attrs ≠ 0 ∧ ∃ d, Means (underscored s.attrs.dataType) s.size d ∧
          ExactFor s.attrs (fun x => ∃ r < R, Amount (val r k) x) d))
    (hbits : ∀ (k : Nat) s o, (slots (b.rowPrefix.getD 0) (.col first' :: rest'))[k]? = some s → s.attrs.bits = some o →
      s.attrs.dataType ∈ [c!"MSB_BIT_STRING", c!"LSB_BIT_STRING"] ∧ s.attrs.scale = none ∧ s.attrs.offset = none ∧ 0 < s.size ∧
      ∀ fss, List.Forall₂ (BitTable.Spec.Declared ids) o.defs fss → ∀ f ∈ fss.flatten, 1 ≤ f.1 ∧ f.1 - 1 + f.2 ≤ 8 * s.size) :
    ∃ out N, (∀ fuel ≥ N, ∀ ops : List (Meta.Op Val Locate.Val), (∀ o ∈ ops, o.isEdit = false) →
        table ids files fuel src (Meta.run env (Meta.new dict params) ops) b.name = some (.ok (some out))) ∧
      out.map Prod.fst = columnNames (b.rowPrefix.getD 0) (.col first' :: rest') ∧
      (∀ (k : Nat) q s, out[k]? = some q → (slots (b.rowPrefix.getD 0) (.col first' :: rest'))[k]? = some s → s.attrs.bits = none →
        ∃ c ws, q.2 = .plain c ∧ Shows c ws ∧ List.Forall₂ (Scaled s.attrs) ((List.range R).map (fun r => val r k)) ws) ∧
      (∀ (k : Nat) q s o fss, out[k]? = some q → (slots (b.rowPrefix.getD 0) (.col first' :: rest'))[k]? = some s →
        s.attrs.bits = some o → List.Forall₂ (BitTable.Spec.Declared ids) o.defs fss →
        q.2 = .bits ((List.range R).map (fun r => fss.flatten.map (fun f =>
          Bits.Spec.field (BitTable.Spec.bitsOf s.attrs.dataType (bytesAt src.file (start + r * L + s.off.toNat) s.size)) f.1 f.2)))) := by
  obtain ⟨out, h1, h2, h3, h4⟩ := BitTable.C94_values ids src hv b start R L first first' rest rest' hsays.defs hread hbin hR hpos hfile val hplain hbits
  obtain ⟨N, hN⟩ := table_read (params := params) ids files src hp kids v record start b _ hblock hptr hrec hstart hext hsays
    ⟨hbin.binary.2.1, hbin.binary.1, hname.1, hname.2.1, hname.2.2⟩
  refine ⟨out, N, fun fuel hf ops ho => ?_, h2, h3, h4⟩
  rw [← h1]
  exact hN fuel hf ops ho

open Verif.Table Verif.Table.Spec Verif.Datatypes Verif.Datatypes.Spec Verif.Label.Spec in
/-- **C119 (the state).** Opening a product with a label that can be read gives the state the other theorems speak of: the label's
dictionary, with its keys in the list of names. -/
theorem C119_label (gb : Bool → Bytes → Option Str) (fn : Str) (stream : Bytes) (m : Int) (strict : Bool) (text : Str) (tree : MDict Str)
    (g : Str → Val) (hn1 : ¬ ChangE fn) (hn2 : ¬ VexMag fn) (hascii : ∀ b ∈ stream.take 20, b < 128) (hpart : LabelPart stream m (utf8 text))
    (htext : Says text tree) (hvals : ∀ s ∈ leaves tree, Label.Spec.Means s (g s)) (hone : Once tree) :
    ∃ params, openLabel gb fn stream m strict = .ok (Meta.new (mapLeaves g tree) params) ∧ ∀ k, k ∈ params ↔ k ∈ keys (mapLeaves g tree) := by
  refine ⟨keys tree, ?_, fun k => by rw [keys_mapLeaves]⟩
  unfold openLabel
  rw [Label.C98_label_file gb fn stream true m strict text hn1 hn2 hascii hpart,
    Label.C98_label_text text tree g true htext hvals (fun _ => hone)]
  rfl

open Verif.Table Verif.Table.Spec Verif.Datatypes Verif.Datatypes.Spec Verif.Label.Spec in
/-- **C119 (from the label file).** A label file whose text says this gives metadata from which the table is loaded like that, after any
lookups. -/
theorem C119_product (gb : Bool → Bytes → Option Str) (fn : Str) (stream : Bytes) (m : Int) (strict : Bool) (text : Str) (tree : MDict Str)
    (g : Str → Val) (hn1 : ¬ ChangE fn) (hn2 : ¬ VexMag fn) (hascii : ∀ b ∈ stream.take 20, b < 128) (hpart : LabelPart stream m (utf8 text))
    (htext : Says text tree) (hvals : ∀ s ∈ leaves tree, Label.Spec.Means s (g s)) (hone : Once tree)
    (ids : BitTable.Ids) (files : Files) (src : Source) (hv : ReadsVax src.vax32) (kids : MDict Val) (v : Val) (record : Option Nat) (start : Nat)
    (b : Table.Block) (first first' : Col) (rest rest' : List Format.Spec.Entry) (L R : Nat)
    (hblock : First b.name (mapLeaves g tree) (.node kids)) (hptr : First ('^' :: b.name) (mapLeaves g tree) (.leaf v))
    (hrec : RecordSize (mapLeaves g tree) kids record) (hstart : Starts record v start) (hext : Extent (mapLeaves g tree) kids)
    (hsays : TableSays src.R files kids b (.col first :: rest))
    (hread : List.Forall₂ (BitTable.Spec.EntryReadAs ids) (.col first :: rest) (.col first' :: rest'))
    (hbin : Binary { b with defs := (Entry.col first' :: rest').map Entry.toDef } first' rest' L)
    (hname : ¬ c!"HEADER" <:+: b.name ∧ ¬ c!"HISTOGRAM" <:+: b.name ∧ b.name ≠ c!"CONTAINER")
    (hR : b.rows.getD 1 = R) (hpos : (∃ s ∈ slots (b.rowPrefix.getD 0) (.col first' :: rest'), s.attrs.bits ≠ none) → 0 < R)
    (hfile : start + R * L ≤ src.file.length) (val : Nat → Nat → Value)
    (hplain : ∀ (k : Nat) s, (slots (b.rowPrefix.getD 0) (.col first' :: rest'))[k]? = some s → s.attrs.bits = none →
      (∀ r < R, Encodes src.cp500 s.attrs.dataType s.size (bytesAt src.file (start + r * L + s.off.toNat) s.size) (val r k)) ∧
      (s.attrs.scale = none ∧ s.attrs.offset = none ∨
        s.attrs.dataType ≠ c!"BOOLEAN" ∧ Native s.attrs.dataType ∧ factor s.attrs ≠ 0 ∧ ∃ d, Datatypes.Spec.Means (underscored s.attrs.dataType) s.size d ∧
          ExactFor s.attrs (fun x => ∃ r < R, Amount (val r k) x) d))
    (hbits : ∀ (k : Nat) s o, (slots (b.rowPrefix.getD 0) (.col first' :: rest'))[k]? = some s → s.attrs.bits = some o →
      s.attrs.dataType ∈ [c!"MSB_BIT_STRING", c!"LSB_BIT_STRING"] ∧ s.attrs.scale = none ∧ s.attrs.offset = none ∧ 0 < s.size ∧
      ∀ fss, List.Forall₂ (BitTable.Spec.Declared ids) o.defs fss → ∀ f ∈ fss.flatten, 1 ≤ f.1 ∧ f.1 - 1 + f.2 ≤ 8 * s.size) :
    ∃ state, openLabel gb fn stream m strict = .ok state ∧
      ∃ out N, (∀ fuel ≥ N, ∀ ops : List (Meta.Op Val Locate.Val), (∀ o ∈ ops, o.isEdit = false) →
          table ids files fuel src (Meta.run env state ops) b.name = some (.ok (some out))) ∧
        out.map Prod.fst = columnNames (b.rowPrefix.getD 0) (.col first' :: rest') ∧
        (∀ (k : Nat) q s, out[k]? = some q → (slots (b.rowPrefix.getD 0) (.col first' :: rest'))[k]? = some s → s.attrs.bits = none →
          ∃ c ws, q.2 = .plain c ∧ Shows c ws ∧ List.Forall₂ (Scaled s.attrs) ((List.range R).map (fun r => val r k)) ws) ∧
        (∀ (k : Nat) q s o fss, out[k]? = some q → (slots (b.rowPrefix.getD 0) (.col first' :: rest'))[k]? = some s →
          s.attrs.bits = some o → List.Forall₂ (BitTable.Spec.Declared ids) o.defs fss →
          q.2 = .bits ((List.range R).map (fun r => fss.flatten.map (fun f =>
            Bits.Spec.field (BitTable.Spec.bitsOf s.attrs.dataType (bytesAt src.file (start + r * L + s.off.toNat) s.size)) f.1 f.2)))) := by
  refine ⟨Meta.new (mapLeaves g tree) (keys tree), ?_, ?_⟩
  · unfold openLabel
    rw [Label.C98_label_file gb fn stream true m strict text hn1 hn2 hascii hpart,
      Label.C98_label_text text tree g true htext hvals (fun _ => hone)]
    rfl
  · exact C119_table ids files src hv (mapLeaves g tree) (keys tree) (fun k => by rw [keys_mapLeaves]) kids v record start b first first'
      rest rest' L R hblock hptr hrec hstart hext hsays hread hbin hname hR hpos hfile val hplain hbits

/-! ### images -/

open Verif.Table Verif.Table.Spec Verif.Datatypes Verif.Datatypes.Spec Verif.Image Verif.Image.Spec Verif.ImageFile Verif.ImageFile.Spec in
/-- **C120 (images).** If the first `name` of a label is a block that describes an image with one band, and the first `^name` says where it
starts, then, after any lookups, loading `name` gives lines times samples, with the values that are stored at the places the label gives.
(Objects whose names contain PREFIX or SUFFIX are the bytes before or after the lines.) -/
theorem C120_image (src : Input) (dict : MDict Val) (params : List Str) (hp : ∀ k, k ∈ params ↔ k ∈ keys dict)
    (name : Str) (kids : MDict Val) (v : Val) (record : Option Nat)
    (start : Nat) (i : ImageBlock) (t : Str) (n pre suf : Nat) (d : Dtype)
    (hblock : First name dict (.node kids)) (hptr : First ('^' :: name) dict (.leaf v))
    (hrec : RecordSize dict kids record) (hstart : Starts record v start) (hext : Extent dict kids)
    (hsays : ImageSays kids i t) (hname : ¬ c!"QUBE" <:+: name)
    (ht : Means (underscored t) n d) (hdir : Direct t) (hn : 0 < n) (hbits : i.sampleBits = 8 * n)
    (hpre : i.linePrefixBytes.getD 0 = pre * n) (hsuf : i.lineSuffixBytes.getD 0 = suf * n) (hb : i.bands.getD 1 = 1)
    (hen : start + i.lines * (pre + i.lineSamples + suf) * n ≤ src.file.length) (first width : Nat)
    (hwhich : c!"PREFIX" <:+: name ∧ 0 < pre ∧ first = 0 ∧ width = pre ∨
      ¬ c!"PREFIX" <:+: name ∧ c!"SUFFIX" <:+: name ∧ 0 < suf ∧ first = pre + i.lineSamples ∧ width = suf ∨
      ¬ c!"PREFIX" <:+: name ∧ ¬ c!"SUFFIX" <:+: name ∧ first = pre ∧ width = i.lineSamples) :
    ∃ A, (∀ ops : List (Meta.Op Val Locate.Val), (∀ o ∈ ops, o.isEdit = false) →
        image src (Meta.run env (Meta.new dict params) ops) name = some (.ok (some A))) ∧ A.shape = [i.lines, width] ∧
      ∀ l s x, l < i.lines → s < width → At src.file start d (l * (pre + i.lineSamples + suf) + first + s) x →
        ImageFile.Spec.Has A [l, s] x := by
  obtain ⟨A, h1, h2, h3⟩ := C68_image_objects src name i t start n pre suf d ht hdir hn hbits hpre hsuf hb hen first width hwhich
  refine ⟨A, fun ops ho => ?_, h2, h3⟩
  obtain ⟨blk, rb, t', l1, -⟩ := locate_ok hp ho src.file.length hblock hptr hrec hstart hext
  unfold Product.image
  rw [l1, Option.bind_eq_bind, Option.bind_some]
  simp only
  rw [image_says hsays hname, Option.bind_eq_bind, Option.bind_some]
  simp only [Int.toNat_natCast]
  rw [h1]
  rfl

open Verif.Table Verif.Table.Spec Verif.Datatypes Verif.Datatypes.Spec Verif.Image Verif.Image.Spec Verif.ImageFile Verif.ImageFile.Spec in
/-- **C120 (bands).** … and for an image with several bands, bands times lines times samples. -/
theorem C120_bands (src : Input) (dict : MDict Val) (params : List Str) (hp : ∀ k, k ∈ params ↔ k ∈ keys dict)
    (name : Str) (kids : MDict Val) (v : Val) (record : Option Nat)
    (start : Nat) (i : ImageBlock) (t : Str) (n B : Nat) (d : Dtype) (st : Storage)
    (hblock : First name dict (.node kids)) (hptr : First ('^' :: name) dict (.leaf v))
    (hrec : RecordSize dict kids record) (hstart : Starts record v start) (hext : Extent dict kids)
    (hsays : ImageSays kids i t) (hname : ¬ c!"QUBE" <:+: name ∧ ¬ c!"PREFIX" <:+: name ∧ ¬ c!"SUFFIX" <:+: name)
    (ht : Means (underscored t) n d) (hdir : Direct t) (hn : 0 < n) (hbits : i.sampleBits = 8 * n)
    (hpre : i.linePrefixBytes.getD 0 = 0) (hsuf : i.lineSuffixBytes.getD 0 = 0) (hb : i.bands = some B) (hB : 1 < B)
    (hbst : i.bst ≠ none) (hst : StorageOf i.bst st)
    (hen : start + B * i.lines * i.lineSamples * n ≤ src.file.length) :
    ∃ A, (∀ ops : List (Meta.Op Val Locate.Val), (∀ o ∈ ops, o.isEdit = false) →
        image src (Meta.run env (Meta.new dict params) ops) name = some (.ok (some A))) ∧ A.shape = [B, i.lines, i.lineSamples] ∧
      ∀ k l s x, k < B → l < i.lines → s < i.lineSamples → At src.file start d (position st B i.lines i.lineSamples k l s) x →
        ImageFile.Spec.Has A [k, l, s] x := by
  obtain ⟨out, h1, h2, h3⟩ := C68_image_bands src i t start n B d st ht hdir hn hbits hpre hsuf hb hB hbst hst hen
  refine ⟨out.image, fun ops ho => ?_, h2, h3⟩
  obtain ⟨blk, rb, t', l1, -⟩ := locate_ok hp ho src.file.length hblock hptr hrec hstart hext
  have hc : ∀ x : Str, ¬ x <:+: name → contains name x = false := by
    intro x hx
    cases h : contains name x with
    | false => rfl
    | true => exact absurd ((Datatypes.contains_iff _ _).1 h) hx
  unfold Product.image
  rw [l1, Option.bind_eq_bind, Option.bind_some]
  simp only
  rw [image_says hsays hname.1, Option.bind_eq_bind, Option.bind_some]
  simp only [Int.toNat_natCast]
  unfold imageObject
  rw [h1]
  simp only [pick, hc _ hname.2.1, hc _ hname.2.2, Bool.false_eq_true, if_false]
  rfl

open Verif.Table Verif.Table.Spec Verif.Datatypes Verif.Datatypes.Spec Verif.Image Verif.Image.Spec Verif.ImageFile Verif.ImageFile.Spec
  Verif.Label.Spec in
/-- **C120 (from the label file).** A label file whose text says this gives metadata from which the image is loaded like that, after any
lookups. -/
theorem C120_product (gb : Bool → Bytes → Option Str) (fn : Str) (stream : Bytes) (m : Int) (strict : Bool) (text : Str) (tree : MDict Str)
    (g : Str → Val) (hn1 : ¬ ChangE fn) (hn2 : ¬ VexMag fn) (hascii : ∀ b ∈ stream.take 20, b < 128) (hpart : LabelPart stream m (utf8 text))
    (htext : Says text tree) (hvals : ∀ s ∈ leaves tree, Label.Spec.Means s (g s)) (hone : Once tree)
    (src : Input) (name : Str) (kids : MDict Val) (v : Val) (record : Option Nat)
    (start : Nat) (i : ImageBlock) (t : Str) (n : Nat) (d : Dtype)
    (hblock : First name (mapLeaves g tree) (.node kids)) (hptr : First ('^' :: name) (mapLeaves g tree) (.leaf v))
    (hrec : RecordSize (mapLeaves g tree) kids record) (hstart : Starts record v start) (hext : Extent (mapLeaves g tree) kids)
    (hsays : ImageSays kids i t) (hname : ¬ c!"QUBE" <:+: name ∧ ¬ c!"PREFIX" <:+: name ∧ ¬ c!"SUFFIX" <:+: name)
    (ht : Datatypes.Spec.Means (underscored t) n d) (hdir : Direct t) (hn : 0 < n) (hbits : i.sampleBits = 8 * n)
    (hpre : i.linePrefixBytes.getD 0 = 0) (hsuf : i.lineSuffixBytes.getD 0 = 0) (hb : i.bands.getD 1 = 1)
    (hen : start + i.lines * i.lineSamples * n ≤ src.file.length) :
    ∃ state, openLabel gb fn stream m strict = .ok state ∧
      ∃ A, (∀ ops : List (Meta.Op Val Locate.Val), (∀ o ∈ ops, o.isEdit = false) →
          image src (Meta.run env state ops) name = some (.ok (some A))) ∧ A.shape = [i.lines, i.lineSamples] ∧
        ∀ l s x, l < i.lines → s < i.lineSamples → At src.file start d (l * i.lineSamples + s) x → ImageFile.Spec.Has A [l, s] x := by
  refine ⟨Meta.new (mapLeaves g tree) (keys tree), ?_, ?_⟩
  · unfold openLabel
    rw [Label.C98_label_file gb fn stream true m strict text hn1 hn2 hascii hpart,
      Label.C98_label_text text tree g true htext hvals (fun _ => hone)]
    rfl
  · obtain ⟨A, h1, h2, h3⟩ := C120_image src (mapLeaves g tree) (keys tree) (fun k => by rw [keys_mapLeaves]) name kids v record start i t n 0 0 d
      hblock hptr hrec hstart hext hsays hname.1 ht hdir hn hbits (by omega) (by omega) hb (by simpa using hen) 0 i.lineSamples
      (Or.inr (Or.inr ⟨hname.2.1, hname.2.2, rfl, rfl⟩))
    refine ⟨A, h1, h2, ?_⟩
    intro l s x hl hs hx
    exact h3 l s x hl hs (by simpa using hx)

end Verif.Product
