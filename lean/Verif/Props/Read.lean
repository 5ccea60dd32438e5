/-
C122: products on disk, from `pdr.read` to the values.
-/
import Verif.Spec.Read
import Verif.Props.Open
import Verif.Props.Load
import Verif.Props.ObjectsPds3
import Verif.Props.Dispatch
import Verif.Props.ProductText

namespace Verif.Read
open Verif.Py Verif.Pvl Verif.Pvl.Spec Verif.Literal Verif.Files Verif.Files.Spec Verif.Open Verif.Open.Spec Verif.Read.Spec

variable {D O : Type}

/-! ### files -/

theorem exists_iff (fs : FS D) (p : D × Str) : fs.exists p = true ↔ p.2 ∈ entries fs p.1 := by
  unfold FS.exists entries
  rw [List.contains_iff_mem]

theorem missing_unavailable {fs : FS D} {d : D} {f : Str} (ht : Tidy fs d) (h : Missing fs d f) : ¬ Available fs (d, f) := by
  rw [C19_available_iff fs (d, f) ht]
  rintro ⟨n, hn, rfl | hv⟩
  · exact (h _ hn).1 rfl
  · exact (h _ hn).2 hv

theorem matching_variants {fs : FS D} {d : D} {f : Str} (ht : Tidy fs d) {pre post : List Str} {n : Str} (h : entries fs d = pre ++ n :: post)
    (hv : Variant f n) (hp : ∀ m ∈ pre, ¬ Variant f m) : ∃ ms, matching fs (d, f) = n :: ms := by
  unfold matching
  show ∃ ms, (entries fs d).filter _ = _
  have hst : ∀ m ∈ entries fs d, (stem m == lower f) = true ↔ Variant f m := by
    intro m hm
    rw [beq_iff_eq, C19_variant_iff f m (ht m hm)]
  refine ⟨post.filter (fun n => stem n == lower f), ?_⟩
  rw [h, List.filter_append, List.filter_eq_nil_iff.2, List.filter_cons_of_pos, List.nil_append]
  · exact (hst n (by rw [h]; simp)).2 hv
  · intro m hm hx
    exact hp m hm ((hst m (by rw [h]; simp [hm])).1 hx)

theorem named_cases {fs : FS D} {d : D} {f n : Str} (ht : Tidy fs d) (h : Named fs d f n) (ps : List (D × Str)) :
    ∃ warn, checkCases fs ((d, f) :: ps) = .ok ((d, n), warn) := by
  cases h with
  | exact h =>
    refine ⟨false, ?_⟩
    rw [checkCases, if_pos ((exists_iff fs (d, f)).2 h)]
  | variant h1 h2 h3 h4 =>
    obtain ⟨ms, hm⟩ := matching_variants ht h2 h3 h4
    refine ⟨decide (ms ≠ []), ?_⟩
    rw [checkCases, if_neg (fun hx => h1 ((exists_iff fs (d, f)).1 hx)), hm]

theorem named_mem {fs : FS D} {d : D} {f n : Str} (h : Named fs d f n) : n ∈ entries fs d := by
  cases h with
  | exact h => exact h
  | variant h1 h2 h3 h4 => rw [h2]; simp

theorem named_available {fs : FS D} {d : D} {f n : Str} (ht : Tidy fs d) (h : Named fs d f n) : Available fs (d, f) := by
  rw [C19_available_iff fs (d, f) ht]
  refine ⟨n, named_mem h, ?_⟩
  cases h with
  | exact h => exact .inl rfl
  | variant h1 h2 h3 h4 => exact .inr h3

theorem paths_found {fs : FS D} {paths : List D} {f : Str} {q : D × Str} (ht : ∀ d ∈ paths, Tidy fs d) (h : InPaths fs paths f q)
    (more : List (D × Str)) : ∃ warn, checkCases fs (candidates paths [f] ++ more) = .ok (q, warn) := by
  obtain ⟨before, after, rfl, hb, hn⟩ := h
  have hc : candidates (before ++ q.1 :: after) [f] = before.map (fun d' => (d', f)) ++ (q.1, f) :: candidates after [f] := by
    simp [candidates, List.map_eq_flatMap]
  rw [hc, List.append_assoc, List.cons_append, checkCases_unavailable]
  · exact named_cases (ht q.1 (by simp)) hn _
  · intro p hp
    obtain ⟨d', hd, rfl⟩ := List.mem_map.1 hp
    exact missing_unavailable (ht d' (by simp [hd])) (hb d' hd)

theorem base_suffix {n base : Str} (h : Base n base) (y : Str) : withSuffix n y = base ++ y := by
  rcases h with ⟨old, rfl, ho, hd, hb⟩ | ⟨hd, hn, rfl⟩
  · exact (C19_with_extension base old y hb ho hd).1
  · exact (C19_with_extension c!"x" base y (by decide) hn hd).2

/-! ### opening -/

theorem open_ok {w : Disk D} {p file label : D × Str} {text : Str} {tree : MDict Str} {g : Str → Val} {limit : Int} {given : Option Str}
    (hu : ∀ s, given = some s → isUrl s = false)
    (hfile : file.1 = p.1 ∧ Named w.fs p.1 p.2 file.2) (h : Stored w file label text tree g limit) :
    ∃ l, openProduct w.toWorld given p none false = .ok { file := file, label := l, standard := .pds3 } ∧ l.getD file = label := by
  obtain ⟨hd, hn⟩ := hfile
  have ht : Tidy w.fs p.1 := hd ▸ h.tidy
  have hf : fileFor w.toWorld p false = .ok file := by
    unfold fileFor
    obtain ⟨wn, hc⟩ := named_cases ht hn []
    rw [if_neg (by simp), show p = (p.1, p.2) from rfl, hc, ← hd]
    rfl
  have hex : w.fs.exists file = true := (exists_iff _ _).2 h.here
  have hl : ∃ l, labelFor w.fs (Open.text w.toWorld file) file none false = .ok l ∧ l.getD file = label := by
    cases h.labelled with
    | attached h1 h2 h3 =>
      refine ⟨none, ?_, rfl⟩
      refine (C19_label w.fs (Open.text w.toWorld file) file false).1 (by rw [← Bool.not_eq_true, labelName_iff]; exact h1) ?_
      intro y hy
      rw [base_suffix h2]
      exact missing_unavailable h.tidy (h3 y hy)
    | @beside base n h1 h2 h3 h4 =>
      refine ⟨some (file.1, n), ?_, rfl⟩
      obtain ⟨q, wn, g1, g2⟩ := (C19_label w.fs (Open.text w.toWorld file) file false).2.1 (by rw [← Bool.not_eq_true, labelName_iff]; exact h1)
        [c!".xml"] c!".lbl" [c!".lblx"] rfl
        (by intro y hy; rw [List.mem_singleton.1 hy, base_suffix h2]; exact missing_unavailable h.tidy h3)
        (by rw [base_suffix h2]; exact named_available h.tidy h4)
      rw [base_suffix h2] at g1
      obtain ⟨wn', g3⟩ := named_cases h.tidy h4 []
      rw [g3] at g1
      cases g1
      exact g2
    | itself h1 =>
      refine ⟨some file, ?_, rfl⟩
      rw [labelFor_own ((labelName_iff w.toWorld file).mpr h1)]
      simp [checkCases, hex, Except.map]
  obtain ⟨l, hl, rfl⟩ := hl
  refine ⟨l, ?_, rfl⟩
  have hord : Ordinary (l.getD file).2 := by
    refine h.tidy _ ?_
    generalize hq : l.getD file = q at h
    have : ∀ q, LabelOf w file q → q.2 ∈ entries w.fs file.1 := by
      intro q hq
      cases hq with
      | attached => exact h.here
      | beside _ _ _ hn => exact named_mem hn
      | itself => exact h.here
    exact this _ h.labelled
  unfold openProduct
  rw [if_neg (noUrl hu), hf]
  simp only [Except.bind]
  rw [hl]
  simp only
  unfold standardFor
  rw [primaryFormat_none hord h.noFits (fun f hp => h.noPicture hp.1) (fun hp => absurd hp h.noPicture)]
  cases l with
  | none => rfl
  | some l =>
    have : isPds4Label (Open.text w.toWorld l) = false := by
      rw [← Bool.not_eq_true, pds4_iff]
      exact h.noPds4
    simp [Except.map, this]

/-! ### the objects -/

mutual
theorem mem_keysT {α : Type} (k : Str) (n : Str) : ∀ t : Pvl.Tree α, k ∈ keysT n t ↔ k = n ∨ k ∈ Objects.Spec.keysIn t
  | .leaf _ => by simp [keysT, Objects.Spec.keysIn]
  | .node b => by
    have := mem_keys_iff k b
    simp only [keysT, Objects.Spec.keysIn, List.mem_cons, List.mem_append]
    rw [this]
    simp only [List.not_mem_nil, or_false]
    tauto
theorem mem_keys_iff {α : Type} (k : Str) : ∀ d : MDict α, k ∈ keys d ↔ k ∈ d.map Prod.fst ∨ k ∈ Objects.Spec.keysWithin d
  | [] => by simp [keys, Objects.Spec.keysWithin]
  | (n, t) :: rest => by
    have h1 := mem_keysT k n t
    have h2 := mem_keys_iff k rest
    simp only [keys, Objects.Spec.keysWithin, List.mem_append, List.map_cons, List.mem_cons]
    rw [h1, h2]
    tauto
end

theorem mem_keysOf {α : Type} (k : Str) (d : MDict α) : k ∈ Objects.Spec.keysOf d ↔ k ∈ keys d := by
  unfold Objects.Spec.keysOf
  rw [mem_keys_iff, Objects.Spec.keysIn, List.mem_append]

open Classical in
theorem mem_objectsOf {name : Str} (hh : ¬ Objects.Spec.Hidden name) (ks : List Str) (h : '^' :: name ∈ ks) : name ∈ Objects.Spec.objectsOf ks := by
  induction ks with
  | nil => cases h
  | cons k ks ih =>
    rcases List.mem_cons.1 h with rfl | h
    · rw [Objects.Spec.objectsOf, if_neg hh]
      simp
    · have := ih h
      unfold Objects.Spec.objectsOf
      split
      · rename_i e; cases e
      · rename_i e
        injection e with e1 e2
        subst e1 e2
        split
        · exact this
        · exact List.mem_cons_of_mem _ this
      · rename_i e
        injection e with e1 e2
        subst e2
        exact this

theorem hidden_never {name : Str} (h : ¬ Dispatch.Spec.NeverLoaded name) : ¬ Objects.Spec.Hidden name := by
  have e : ∀ x : Str, x <:+: name ↔ Dispatch.Spec.Has name x := by
    intro x
    constructor
    · rintro ⟨a, b, h⟩; exact ⟨a, b, h.symm⟩
    · rintro ⟨a, b, h⟩; exact ⟨a, b, h.symm⟩
  unfold Objects.Spec.Hidden
  rw [e, e, e, e, e]
  exact h

theorem blockFor_congr {label : MDict Val} {params params' : List Str} (h : ∀ k, k ∈ params ↔ k ∈ params') (n : Str) :
    Objects.Spec.blockFor label params n = Objects.Spec.blockFor label params' n := by
  unfold Objects.Spec.blockFor
  by_cases hn : n ∈ params
  · rw [if_pos hn, if_pos ((h n).1 hn)]
  · rw [if_neg hn, if_neg (fun hx => hn ((h n).2 hx))]

/-- what `pdr.read` gives -/
theorem read_ok (w : Disk D) (M : Machine D O) {p file label : D × Str} {text : Str} {tree : MDict Str} {g : Str → Val} {limit : Int}
    {given : Option Str} (hu : ∀ s, given = some s → isUrl s = false) (more : List D) (strict : Bool)
    (hfile : file.1 = p.1 ∧ Named w.fs p.1 p.2 file.2) (h : Stored w file label text tree g limit) :
    ∃ params inter s0, read w M given p none more false limit strict =
        .ok (some ({ file := file, paths := file.1 :: more, state := Meta.new (mapLeaves g tree) params, interleaved := inter }, s0)) ∧
      (∀ k, k ∈ params ↔ k ∈ keys (mapLeaves g tree)) ∧ (∀ i ∈ inter, c!"_LINE_PREFIX_TABLE" <:+ i) ∧
      (∀ n, s0.attrs n = none) ∧
      ∀ n, ¬ Dispatch.Spec.NeverLoaded n → '^' :: n ∈ keys (mapLeaves g tree) → n ∈ s0.index := by
  obtain ⟨l, ho, hl⟩ := open_ok hu hfile h
  obtain ⟨params, hlab, hp⟩ := Product.C119_label M.gb (Open.text w.toWorld label) (w.content label) limit strict text tree g h.noChangE h.noVexMag
    h.ascii h.part h.saying h.values h.once
  set d : Data D := { file := file, paths := file.1 :: more, state := Meta.new (mapLeaves g tree) params, interleaved := [] } with hd
  set E : Objects.Env Val := {
    isEmpty := fun v => match v with | .str [] => true | _ => false
    found := fun n => found w M d 0 n
    start := M.prefixStart } with hE
  obtain ⟨r, hr, hidx, hint⟩ := Objects.C78_pds3_objects E (mapLeaves g tree) params
    (by
      intro n hn hpre
      have hk : n ∈ params := by
        rw [hp]
        have := h.prefixes n hn hpre
        rwa [keys_mapLeaves]
      unfold Objects.Spec.blockFor
      rw [if_pos hk]
      split <;> simp)
    (by
      intro n hn hi b hb
      rw [blockFor_congr hp] at hb
      exact h.structures n hn hi b hb)
  refine ⟨params, r.interleaved.map Prod.fst, ⟨r.index, fun _ => none, r.mapped, 0, 0⟩, ?_, hp, ?_, fun n => rfl, ?_⟩
  · unfold read
    rw [ho]
    simp only [if_true]
    rw [hl, hlab]
    simp only
    have hr' : Objects.openPds3 E (mapLeaves g tree) params = .ok r := hr
    show (match Objects.openPds3 E (mapLeaves g tree) params with
        | .error e => _
        | .ok r => _) = _
    rw [hr']
  · intro i hi
    rw [hint, List.map_map] at hi
    obtain ⟨j, _, rfl⟩ := List.mem_map.1 hi
    exact ⟨j, rfl⟩
  · intro n hn hk
    show n ∈ r.index
    rw [hidx]
    refine List.mem_cons_of_mem _ (List.mem_append_left _ ?_)
    exact mem_objectsOf (hidden_never hn) _ ((mem_keysOf _ _).2 hk)

/-! ### the file of an object -/

open Verif.Product in
theorem file_ok {w : Disk D} {d : Data D} {dict : MDict Val} {params : List Str} {ops : List (Meta.Op Val Locate.Val)}
    (hp : ∀ k, k ∈ params ↔ k ∈ keys dict) (ho : ∀ o ∈ ops, o.isEdit = false) (ht : ∀ e ∈ d.paths, Tidy w.fs e)
    (hcomp : c!"COMPRESSED_FILE" ∉ dict.map Prod.fst ∨ c!"UNCOMPRESSED_FILE" ∉ dict.map Prod.fst)
    {name : Str} {v : Val} {q : D × Str} (hcaret : name.head? ≠ some '^') (hptr : Meta.Spec.First ('^' :: name) dict (.leaf v)) (hv : v ≠ .none)
    (hq : FileOf w.fs d.paths d.file v q) :
    fileOf w d (Meta.run Product.env (Meta.new dict params) ops) name = some (.ok (some q)) := by
  have hdict : (Meta.run Product.env (Meta.new dict params) ops).dict = dict :=
    (Meta.coherent_run Product.env (Meta.new dict params) ops (Meta.coherent_new _ _ _) ho).2.1
  have hpo : pointerOf (Meta.run Product.env (Meta.new dict params) ops) name = toPointer v := by
    unfold pointerOf
    rw [show pointerize name = '^' :: name from ?_]
    · rw [show Meta.run Product.env (Meta.new dict params) ops = after dict params ops from rfl, get_first hp ho hptr (by simpa using hv)]
    · unfold pointerize
      rw [if_neg]
      intro hx
      rw [startsWith_iff] at hx
      obtain ⟨t, ht⟩ := hx
      rw [ht] at hcaret
      exact hcaret rfl
  unfold fileOf hints
  rw [hdict, if_neg, hpo]
  · rw [Option.map_some]
    congr 1
    obtain ⟨-, T2, T3⟩ := C86_target w.fs d.paths d.file { pointer := toPointer v } rfl rfl
    cases hq with
    | @named f q hn hin =>
      have hptr : toPointer v = .text f ∨ ∃ rest, toPointer v = .seq (.text f :: rest) := by
        rcases hn with rfl | ⟨rest, rfl⟩ | ⟨rest, rfl⟩
        · exact .inl rfl
        · exact .inr ⟨_, rfl⟩
        · exact .inr ⟨_, rfl⟩
      obtain ⟨wn, hc⟩ := paths_found ht hin []
      rw [List.append_nil] at hc
      have hof : objectFiles d.paths d.file { pointer := toPointer v } = .ok (candidates d.paths [f]) := by
        unfold objectFiles
        rcases hptr with h | ⟨rest, h⟩ <;> simp only [h] <;> rfl
      unfold targetPath
      rw [hof]
      simp only [Except.bind]
      rw [hc]
      rfl
    | own h1 h2 h3 h4 =>
      rw [T3 ?_ ((exists_iff _ _).2 h4)]
      · rfl
      · have key : ∀ xs : List Val, xs ≠ [] → (∀ f rest, xs ≠ .str f :: rest) → ∃ x rest, xs.map toPointer.item = x :: rest ∧ ∀ f, x ≠ .text f := by
          intro xs hne hx
          obtain ⟨x, xs, rfl⟩ := List.exists_cons_of_ne_nil hne
          refine ⟨_, _, rfl, ?_⟩
          intro f hf
          cases x <;> simp only [toPointer.item, reduceCtorEq, Pointer.text.injEq] at hf
          exact hx _ _ rfl
        cases v with
        | str s => exact absurd (Or.inl rfl) (h1 s)
        | tuple xs =>
          obtain ⟨x, rest, e, hx⟩ := key xs (by rintro rfl; exact h2 rfl) (by rintro f rest rfl; exact h1 f (Or.inr (Or.inl ⟨_, rfl⟩)))
          exact .inr ⟨x, rest, by show Pointer.seq (xs.map toPointer.item) = _; rw [e], hx⟩
        | list xs =>
          obtain ⟨x, rest, e, hx⟩ := key xs (by rintro rfl; exact h3 rfl) (by rintro f rest rfl; exact h1 f (Or.inr (Or.inr ⟨_, rfl⟩)))
          exact .inr ⟨x, rest, by show Pointer.seq (xs.map toPointer.item) = _; rw [e], hx⟩
        | _ => exact .inl rfl
  · rintro hx
    simp only [Bool.and_eq_true, List.contains_iff_mem] at hx
    rcases hcomp with h | h
    · exact h hx.1
    · exact h hx.2

/-! ### any history -/

/-- the object is in the list, and it has no value yet or the right one -/
def Good {V : Type} (name : Str) (v0 : V) (s : Load.State V) : Prop :=
  name ∈ s.index ∧ (s.attrs name = none ∨ s.attrs name = some (some v0))

section history
open Verif.Load Verif.Load.Spec
variable {V : Type} {e : Load.Env V} {name : Str} {v0 : V}

theorem load_good (hs : e.standard = .pds3) (ht : ∀ k, e.target k name = true)
    (ha : ∀ k, ∃ l, e.ask k name = .objs l ∧ Load.Spec.given l name = some v0)
    (hoth : ∀ k n l, n ≠ name → e.ask k n = .objs l → Load.Spec.given l name = none) (s : Load.State V) (n : Str) (reload : Bool)
    (h : Good name v0 s) : Good name v0 (load e s n reload).1 := by
  refine ⟨Grows.mem (load_frame e s n reload).1 h.1, ?_⟩
  have pds3 : ∀ s' : Load.State V, s'.attrs name = s.attrs name →
      (loadPds3 e s' n).1.attrs name = none ∨ (loadPds3 e s' n).1.attrs name = some (some v0) := by
    intro s' hs'
    have h' : s'.attrs name = none ∨ s'.attrs name = some (some v0) := hs' ▸ h.2
    unfold loadPds3
    by_cases hn : n = name
    · subst hn
      obtain ⟨l, hl, hg⟩ := ha s'.asked
      rw [hl]
      simp only [addObjs_attrs, hg]
      simp
    · cases hq : e.ask s'.asked n with
      | nothing => exact h'
      | objs l =>
        simp only [addObjs_attrs, hoth _ _ _ hn hq, tick]
        exact h'
      | direct v => simp only [fallBack, setAttr, tick, if_neg (Ne.symm hn)]; exact h'
      | fails x => simp only [fallBack, setAttr, tick, if_neg (Ne.symm hn)]; exact h'
      | interrupt => exact h'
  rcases load_cases e s n reload with ⟨hx, _⟩ | ⟨hx, _⟩ | ⟨_, _, ⟨_, hx⟩ | ⟨hx, _⟩⟩
  · rw [hx]; exact h.2
  · rw [hx]; exact h.2
  · rw [hx]
    unfold locateThenLoad
    split
    · exact pds3 s rfl
    · split
      · exact pds3 _ rfl
      · rename_i hnt
        have hn : name ≠ n := by rintro rfl; exact hnt (ht _)
        split
        · exact h.2
        · simp only [fallBack, setAttr, if_neg hn]
          exact h.2
  · exact absurd hs hx

theorem get_good (hb : e.builtin name = false) (hs : e.standard = .pds3) (ht : ∀ k, e.target k name = true)
    (ha : ∀ k, ∃ l, e.ask k name = .objs l ∧ Load.Spec.given l name = some v0) (s : Load.State V)
    (h : Good name v0 s) : (Load.get e s name).2 = .value (some v0) := by
  unfold Load.get
  rw [hb]
  simp only [Bool.false_eq_true, if_false]
  rcases h.2 with hn | hn
  · rw [hn]
    simp only
    rw [if_neg (by simpa using h.1)]
    obtain ⟨l, hl, hg⟩ := ha s.asked
    have hnl : loaded e s name = false := by simp [loaded, hb, hn]
    obtain ⟨h1, h2⟩ := (C18_load_value e s name false hs h.1 (by rw [hnl]; simp) (Or.inr (ht _))).1 l hl
    have h3 := h2 name
    rw [hg] at h3
    cases hq : load e s name false with
    | mk s' r =>
      rw [hq] at h1 h3
      simp only at h1 h3
      subst h1
      simp [h3]
  · rw [hn]

theorem run_good (hs : e.standard = .pds3) (ht : ∀ k, e.target k name = true)
    (ha : ∀ k, ∃ l, e.ask k name = .objs l ∧ Load.Spec.given l name = some v0)
    (hoth : ∀ k n l, n ≠ name → e.ask k n = .objs l → Load.Spec.given l name = none) {s s' : Load.State V} {ops : List Load.Op}
    (hr : Load.Run e s ops s') (h : Good name v0 s) : Good name v0 s' := by
  have hall : ∀ {i : Nat} {a b : Load.State V} {r : Res}, LoadAll e i a b r → Good name v0 a → Good name v0 b := by
    intro i a b r hl
    induction hl with
    | done => exact id
    | skip _ _ _ ih => exact ih
    | @next i a a1 b r r1 n _ _ hl _ _ ih =>
      intro ha'
      refine ih ?_
      have := load_good hs ht ha hoth a n false ha'
      rwa [hl] at this
    | @stop i a a1 r1 n _ _ hl _ _ =>
      intro ha'
      have := load_good hs ht ha hoth a n false ha'
      rwa [hl] at this
  induction hr with
  | nil => exact h
  | @cons s s1 s2 o os hstep _ ih =>
    refine ih ?_
    cases hstep with
    | load => exact load_good hs ht ha hoth s _ _ h
    | @get n =>
      unfold Load.get
      split
      · exact h
      · split
        · exact h
        · split
          · exact h
          · have := load_good hs ht ha hoth s n false h
            cases hq : load e s n false with
            | mk s' r =>
              rw [hq] at this
              cases r <;> exact this
    | del => 
      rename_i n
      unfold Load.del
      refine ⟨h.1, ?_⟩
      simp only
      split
      · exact .inl rfl
      · exact h.2
    | all hl => exact hall hl h

end history

/-! ### the reader -/

theorem data_set {dict : MDict Val} {params : List Str} {ops : List (Meta.Op Val Locate.Val)} (hp : ∀ k, k ∈ params ↔ k ∈ keys dict)
    (ho : ∀ o ∈ ops, o.isEdit = false) {t : Str} (h : DataSet dict t) : dataSet (Meta.run Product.env (Meta.new dict params) ops) = some t := by
  unfold dataSet
  rcases h with h | ⟨h, rfl⟩
  · have := Product.get_first (d := .str []) (w := false) hp ho h (by simp)
    rw [show Meta.run Product.env (Meta.new dict params) ops = Product.after dict params ops from rfl, this]
  · have := Product.get_absent (d := .str []) (w := false) hp ho h
    rw [show Meta.run Product.env (Meta.new dict params) ops = Product.after dict params ops from rfl, this]

theorem no_edit {M : Machine D O} {dict : MDict Val} {name : Str} (h : Quiet M dict name) (k : Nat) : ∀ o ∈ M.lookups k, o.isEdit = false := by
  intro o ho
  have := h.lookups k o ho
  cases o with
  | edit f => exact absurd rfl (this f)
  | get => rfl
  | block => rfl
  | refresh => rfl

theorem object_name {w : Disk D} {M : Machine D O} {d : Data D} {fuel : Nat} {s : Product.State} {name : Str} {q : D × Str}
    {l : List (Str × Option (Obj O))} (h : readObject w M d fuel s name q = some (.objs l)) : ∀ e ∈ l, e.1 = name := by
  have one : ∀ (x : Option (Obj O)), [(name, x)] = l → ∀ e ∈ l, e.1 = name := by
    rintro x rfl e he
    rw [List.mem_singleton.1 he]
  have hmap : ∀ {α : Type} (o : Option α) (f : α → Load.Outcome (Obj O)), o.map f = some (.objs l) → ∃ a, f a = .objs l := by
    intro α o f ho
    obtain ⟨a, _, ha⟩ := Option.map_eq_some_iff.1 ho
    exact ⟨a, ha⟩
  unfold readObject at h
  obtain ⟨ds, _, h⟩ := Option.bind_eq_some_iff.1 h
  split at h
  · unfold tableObject at h
    simp only at h
    split at h
    · cases h
    · injection h with h; injection h with h; exact one _ h
    · obtain ⟨a, ha⟩ := hmap _ _ h
      cases a with
      | error e => cases ha
      | ok o => injection ha with ha; exact one _ ha
    · obtain ⟨a, ha⟩ := hmap _ _ h
      cases a with
      | error e => cases ha
      | ok o => injection ha with ha; exact one _ ha
  · unfold imageObject at h
    obtain ⟨a, ha⟩ := hmap _ _ h
    cases a with
    | error e => cases ha
    | ok o => injection ha with ha; exact one _ ha
  · cases h

/-- everything about a product but the reader of the object -/
theorem product_value (w : Disk D) (M : Machine D O) {p file label : D × Str} {text : Str} {tree : MDict Str} {g : Str → Val} {limit : Int}
    {given : Option Str} (hu : ∀ s, given = some s → isUrl s = false) (more : List D) (strict : Bool)
    (hfile : file.1 = p.1 ∧ Named w.fs p.1 p.2 file.2) (h : Stored w file label text tree g limit) (hmore : ∀ e ∈ more, Tidy w.fs e)
    {name : Str} (hq : Quiet M (mapLeaves g tree) name) (hnl : ¬ Dispatch.Spec.NeverLoaded name)
    {v : Val} {q : D × Str} (hptr : Meta.Spec.First ('^' :: name) (mapLeaves g tree) (.leaf v)) (hv : v ≠ .none)
    (hqf : FileOf w.fs (file.1 :: more) file v q) (P : Obj O → Prop)
    (hx : ∀ (d : Data D) (params : List Str), (∀ k, k ∈ params ↔ k ∈ keys (mapLeaves g tree)) → d.paths = file.1 :: more → ∃ x N, P x ∧ ∀ fuel ≥ N,
      ∀ ops : List (Meta.Op Val Locate.Val), (∀ o ∈ ops, o.isEdit = false) →
        readObject w M d fuel (Meta.run Product.env (Meta.new (mapLeaves g tree) params) ops) name q = some (.objs [(name, some x)])) :
    ∃ d s0 x, read w M given p none more false limit strict = .ok (some (d, s0)) ∧ name ∈ s0.index ∧
      (∃ N, ∀ fuel ≥ N, ∀ ops s, Load.Run (env w M d fuel) s0 ops s → (Load.get (env w M d fuel) s name).2 = .value (some x)) ∧ P x := by
  obtain ⟨params, inter, s0, h1, hp, h2, h3, h4⟩ := read_ok w M hu more strict hfile h
  obtain ⟨x, N, hP, hN⟩ := hx { file := file, paths := file.1 :: more, state := Meta.new (mapLeaves g tree) params, interleaved := inter } params hp rfl
  refine ⟨_, s0, x, h1, h4 name hnl (Product.first_mem hptr), ?_, hP⟩
  set d : Data D := { file := file, paths := file.1 :: more, state := Meta.new (mapLeaves g tree) params, interleaved := inter } with hd
  refine ⟨N, fun fuel hfuel ops s hrun => ?_⟩
  have hsp : ∀ k, M.special (stateAt M d k) name = false := by
    intro k
    refine hq.noSpecial _ ?_
    exact (Meta.coherent_run Product.env (Meta.new (mapLeaves g tree) params) _ (Meta.coherent_new _ _ _) (no_edit hq k)).2.1
  have hfk : ∀ k, fileOf w d (stateAt M d k) name = some (.ok (some q)) := by
    intro k
    refine file_ok (d := d) hp (no_edit hq k) ?_ ?_ hq.noCaret hptr hv hqf
    · intro e he
      rcases List.mem_cons.1 he with rfl | he
      · exact h.tidy
      · exact hmore e he
    · have hk : (mapLeaves g tree).map Prod.fst = tree.map Prod.fst := by
        clear * -
        induction tree with
        | nil => rfl
        | cons e rest ih => obtain ⟨k, t⟩ := e; simp [mapLeaves, ih]
      rw [hk]
      exact h.compressed
  have ht : ∀ k, (env w M d fuel).target k name = true := by
    intro k
    show found w M d k name = true
    unfold found
    simp only
    rw [hsp k, hfk k]
    simp
  have ha : ∀ k, ∃ l, (env w M d fuel).ask k name = .objs l ∧ Load.Spec.given l name = some x := by
    intro k
    refine ⟨[(name, some x)], ?_, ?_⟩
    · show ask w M d fuel k name = _
      unfold ask
      simp only
      rw [hsp k, hfk k]
      have hi : d.interleaved.contains name = false := by
        rw [← Bool.not_eq_true, List.contains_iff_mem]
        exact fun hm => hq.noPrefix (h2 _ hm)
      rw [hi]
      simp only [Bool.or_self, Bool.false_eq_true, if_false]
      rw [show stateAt M d k = Meta.run Product.env (Meta.new (mapLeaves g tree) params) (M.lookups k) from rfl, hN fuel hfuel _ (no_edit hq k)]
      rfl
    · simp [Load.Spec.given]
  have hoth : ∀ k n l, n ≠ name → (env w M d fuel).ask k n = .objs l → Load.Spec.given l name = none := by
    intro k n l hn hl
    have key : ∀ l : List (Str × Option (Obj O)), (∀ e ∈ l, e.1 ≠ name) → Load.Spec.given l name = none := by
      intro l hl
      unfold Load.Spec.given
      rw [List.filterMap_eq_nil_iff.2]
      · rfl
      · intro e he
        rw [if_neg (hl e he)]
    refine key l ?_
    have hl : ask w M d fuel k n = .objs l := hl
    unfold ask at hl
    simp only at hl
    split at hl
    · exact hq.others k n l hn hl
    · split at hl
      · rename_i q' _
        cases hr : readObject w M d fuel (stateAt M d k) n q' with
        | none => rw [hr] at hl; exact hq.others k n l hn hl
        | some r =>
          rw [hr] at hl
          have hl : r = .objs l := hl
          intro e he
          rw [object_name (hl ▸ hr) e he]
          exact hn
      · cases hl
      · cases hl
      · exact hq.others k n l hn hl
  exact get_good hq.noAttribute rfl ht ha s (run_good rfl ht ha hoth hrun ⟨h4 name hnl (Product.first_mem hptr), Or.inl (h3 name)⟩)

/-! ### format files -/

section mono
open Verif.Product.Spec
variable {files files' : Files}

theorem contents_mono (hle : ∀ v b, files v = some b → files' v = some b) {v : Val} {c : MDict Val} (h : Contents files v c) : Contents files' v c := by
  cases h with
  | table h1 h2 => exact .table (hle _ _ h1) h2
  | all h1 h2 => exact .all (hle _ _ h1) h2

theorem injected_mono (hle : ∀ v b, files v = some b → files' v = some b) {b c : MDict Val} (h : Injected files b c) : Injected files' b c := by
  induction h with
  | nil => exact .nil
  | keep h _ ih => exact .keep h ih
  | file h1 h2 _ ih => exact .file h1 (contents_mono hle h2) ih

theorem column_mono (hle : ∀ v b, files v = some b → files' v = some b) {b c : MDict Val} (h : ColumnText files b c) : ColumnText files' b c := by
  cases h with
  | plain h => exact .plain h
  | files h1 h2 => exact .files h1 (injected_mono hle h2)

theorem columns_mono (hle : ∀ v b, files v = some b → files' v = some b) {R : Float.Rounding Float.double} {b : MDict Val}
    {cs} (h : Columns R files b cs) : Columns R files' b cs := by
  induction h with
  | nil => exact .nil
  | skip h1 h2 _ ih => exact .skip h1 h2 ih
  | file h1 h2 _ ih => exact .file h1 (contents_mono hle h2) ih
  | column h1 h2 h3 _ ih => exact .column h1 (column_mono hle h2) h3 ih

theorem defines_mono (hle : ∀ v b, files v = some b → files' v = some b) {R : Float.Rounding Float.double} {b : MDict Val}
    {es : List Format.Spec.Entry} (h : Defines R files b es) : Defines R files' b es := by
  induction h with
  | nil => exact .nil
  | skip h1 h2 _ ih => exact .skip h1 h2 ih
  | file h1 h2 _ ih => exact .file h1 (contents_mono hle h2) ih
  | column h1 h2 h3 _ ih => exact .column h1 (column_mono hle h2) h3 ih
  | container h1 h2 h3 h4 h5 h6 _ ih => exact .container h1 h2 h3 h4 h5 (columns_mono hle h6) ih

theorem table_mono (hle : ∀ v b, files v = some b → files' v = some b) {R : Float.Rounding Float.double} {b : MDict Val} {t : Table.Block}
    {es : List Format.Spec.Entry} (h : TableSays R files b t es) : TableSays R files' b t es :=
  { h with columns := defines_mono hle h.columns }

theorem sheet_mono (hle : ∀ v b, files v = some b → files' v = some b) {R : Float.Rounding Float.double} {bytes : Bool} {b : MDict Val}
    {fs : List Ascii.Field} (h : SheetFields R files bytes b fs) : SheetFields R files' bytes b fs := by
  induction h with
  | nil => exact .nil
  | skip h1 h2 _ ih => exact .skip h1 h2 ih
  | file h1 h2 _ ih => exact .file h1 (contents_mono hle h2) ih
  | field h1 h2 h3 _ ih => exact .field h1 (column_mono hle h2) h3 ih

end mono

/-- **C122 (format files).** A format file that is in one of the directories that are searched is found (in any letter case), and what it
says is what is read. -/
theorem C122_format_file (w : Disk D) (M : Machine D O) (paths : List D) (q : D × Str) (ht : ∀ e ∈ paths, Tidy w.fs e) (f : Str) (block : MDict Val)
    (h : FormatFile w paths f block) : formatFile w M paths q (.str f) = some block := by
  obtain ⟨q', text, tree, g, h1, h2, h3, h4, h5, h6, h7, h8, rfl⟩ := h
  obtain ⟨wn, hc⟩ := paths_found ht h1 ((M.around q).map (fun dir => (dir, f)))
  unfold formatFile
  simp only
  rw [hc]
  simp only
  rw [Label.C98_label_file M.gb (Open.text w.toWorld q') (w.content q') true Label.defaultLimit true text h2 h3 h4 h5,
    Label.C98_label_text text tree g true h6 h7 (fun _ => h8)]

theorem files_mono {w : Disk D} (M : Machine D O) {paths : List D} (q : D × Str) (ht : ∀ e ∈ paths, Tidy w.fs e) {files : Product.Spec.Files}
    (h : FormatFiles w paths files) : ∀ v b, files v = some b → formatFile w M paths q v = some b := by
  intro v b hv
  obtain ⟨f, rfl, hf⟩ := h v b hv
  exact C122_format_file w M paths q ht f b hf

/-! ### objects -/

theorem starts_value {record : Option Nat} {v : Val} {start : Nat} (h : Product.Spec.Starts record v start) : v ≠ .none := by
  rintro rfl
  cases h with
  | place h => cases h

theorem loader_of {w : Disk D} {M : Machine D O} {label : MDict Val} {paths : List D} {own : D × Str} {name : Str} {v : Val} {q : D × Str}
    (h : Object w M label paths own name v q) {params : List Str} {ops : List (Meta.Op Val Locate.Val)} (hp : ∀ k, k ∈ params ↔ k ∈ keys label)
    (ho : ∀ o ∈ ops, o.isEdit = false) :
    ∃ ds, dataSet (Meta.run Product.env (Meta.new label params) ops) = some ds ∧
      (IsTable name → Dispatch.pointerToLoader false ds name q.2 = .table) ∧ (IsImage name → Dispatch.pointerToLoader false ds name q.2 = .image) := by
  obtain ⟨ds, h1, h2⟩ := h.dataSet
  obtain ⟨-, -, c3, -, c5, -⟩ := Dispatch.C21_by_name false ds name q.2 ⟨h.shown, rfl, h.noLabel⟩ ⟨h.plain, h.noFits, h.noPicture⟩ h2 h.noDot
  exact ⟨ds, data_set hp ho h1, c3.2, c5.2⟩

theorem tidy_paths {w : Disk D} {file label : D × Str} {text : Str} {tree : MDict Str} {g : Str → Val} {limit : Int} {more : List D}
    (h : Stored w file label text tree g limit) (hmore : ∀ e ∈ more, Tidy w.fs e) : ∀ e ∈ file.1 :: more, Tidy w.fs e := by
  intro e he
  rcases List.mem_cons.1 he with rfl | he
  · exact h.tidy
  · exact hmore e he

open Verif.Table Verif.Table.Spec Verif.Datatypes Verif.Datatypes.Spec Verif.Format Verif.Format.Spec Verif.Meta.Spec Verif.Product.Spec in
/-- **C122 (tables).** A product on disk: if its label (in the file, beside it, or opened itself) has a block that describes a binary table,
and the file of the table holds the values at the places the label gives, then `pdr.read` lists the table, and whatever was loaded or
deleted before, asking for it gives the columns that the label names with these values. -/
theorem C122_table (w : Disk D) (M : Machine D O) (hvax : ReadsVax M.vax32) (p file label : D × Str) (text : Str) (tree : MDict Str) (g : Str → Val)
    (limit : Int) (given : Option Str) (hu : ∀ s, given = some s → isUrl s = false) (more : List D) (strict : Bool)
    (hfile : file.1 = p.1 ∧ Named w.fs p.1 p.2 file.2) (hstored : Stored w file label text tree g limit) (hmore : ∀ e ∈ more, Tidy w.fs e)
    (b : Table.Block) (v : Val) (q : D × Str) (hobj : Object w M (mapLeaves g tree) (file.1 :: more) file b.name v q) (hkind : IsTable b.name)
    (files : Files) (hfiles : FormatFiles w (file.1 :: more) files)
    (kids : MDict Val) (record : Option Nat) (start : Nat) (first first' : Col) (rest rest' : List Format.Spec.Entry) (L R : Nat)
    (hblock : First b.name (mapLeaves g tree) (.node kids))
    (hrec : RecordSize (mapLeaves g tree) kids record) (hstart : Starts record v start) (hext : Extent (mapLeaves g tree) kids)
    (hsays : TableSays M.pandas.R files kids b (.col first :: rest))
    (hread : List.Forall₂ (BitTable.Spec.EntryReadAs M.ids) (.col first :: rest) (.col first' :: rest'))
    (hbin : Binary { b with defs := (Entry.col first' :: rest').map Entry.toDef } first' rest' L)
    (hname : ¬ c!"HEADER" <:+: b.name ∧ ¬ c!"HISTOGRAM" <:+: b.name ∧ b.name ≠ c!"CONTAINER")
    (hR : b.rows.getD 1 = R) (hpos : (∃ s ∈ slots (b.rowPrefix.getD 0) (.col first' :: rest'), s.attrs.bits ≠ none) → 0 < R)
    (hlen : start + R * L ≤ (w.content q).length) (val : Nat → Nat → Value)
    (hplain : ∀ (k : Nat) s, (slots (b.rowPrefix.getD 0) (.col first' :: rest'))[k]? = some s → s.attrs.bits = none →
      (∀ r < R, Encodes M.cp500 s.attrs.dataType s.size (bytesAt (w.content q) (start + r * L + s.off.toNat) s.size) (val r k)) ∧
      (s.attrs.scale = none ∧ s.attrs.offset = none ∨
        s.attrs.dataType ≠ c!"BOOLEAN" ∧ Native s.attrs.dataType ∧ factor s.attrs ≠ 0 ∧ ∃ d, Datatypes.Spec.Means (underscored s.attrs.dataType) s.size d ∧
          ExactFor s.attrs (fun x => ∃ r < R, Amount (val r k) x) d))
    (hbits : ∀ (k : Nat) s o, (slots (b.rowPrefix.getD 0) (.col first' :: rest'))[k]? = some s → s.attrs.bits = some o →
      s.attrs.dataType ∈ [c!"MSB_BIT_STRING", c!"LSB_BIT_STRING"] ∧ s.attrs.scale = none ∧ s.attrs.offset = none ∧ 0 < s.size ∧
      ∀ fss, List.Forall₂ (BitTable.Spec.Declared M.ids) o.defs fss → ∀ f ∈ fss.flatten, 1 ≤ f.1 ∧ f.1 - 1 + f.2 ≤ 8 * s.size) :
    ∃ d s0 out, read w M given p none more false limit strict = .ok (some (d, s0)) ∧ b.name ∈ s0.index ∧
      (∃ N, ∀ fuel ≥ N, ∀ ops s, Load.Run (env w M d fuel) s0 ops s → (Load.get (env w M d fuel) s b.name).2 = .value (some (.table out))) ∧
      out.map Prod.fst = columnNames (b.rowPrefix.getD 0) (.col first' :: rest') ∧
      (∀ (k : Nat) c s, out[k]? = some c → (slots (b.rowPrefix.getD 0) (.col first' :: rest'))[k]? = some s → s.attrs.bits = none →
        ∃ x ws, c.2 = .plain x ∧ Shows x ws ∧ List.Forall₂ (Scaled s.attrs) ((List.range R).map (fun r => val r k)) ws) ∧
      (∀ (k : Nat) c s o fss, out[k]? = some c → (slots (b.rowPrefix.getD 0) (.col first' :: rest'))[k]? = some s →
        s.attrs.bits = some o → List.Forall₂ (BitTable.Spec.Declared M.ids) o.defs fss →
        c.2 = .bits ((List.range R).map (fun r => fss.flatten.map (fun f =>
          Bits.Spec.field (BitTable.Spec.bitsOf s.attrs.dataType (bytesAt (w.content q) (start + r * L + s.off.toNat) s.size)) f.1 f.2)))) := by
  set src : Source := ⟨w.compressed q, w.content q, M.cp500, M.vax32, M.pandas.R, M.pandas.R'⟩ with hsrc
  set ff := formatFile w M (file.1 :: more) q with hff
  have hsays' : TableSays src.R ff kids b (.col first :: rest) := table_mono (files_mono M q (tidy_paths hstored hmore) hfiles) hsays
  obtain ⟨d, s0, x, e1, e2, e3, out, rfl, e4⟩ := product_value w M hu more strict hfile hstored hmore hobj.toQuiet hobj.shown hobj.pointer
    (starts_value hstart) hobj.file (fun x => ∃ out, x = .table out ∧
      out.map Prod.fst = columnNames (b.rowPrefix.getD 0) (.col first' :: rest') ∧
      (∀ (k : Nat) c s, out[k]? = some c → (slots (b.rowPrefix.getD 0) (.col first' :: rest'))[k]? = some s → s.attrs.bits = none →
        ∃ x ws, c.2 = .plain x ∧ Shows x ws ∧ List.Forall₂ (Scaled s.attrs) ((List.range R).map (fun r => val r k)) ws) ∧
      (∀ (k : Nat) c s o fss, out[k]? = some c → (slots (b.rowPrefix.getD 0) (.col first' :: rest'))[k]? = some s →
        s.attrs.bits = some o → List.Forall₂ (BitTable.Spec.Declared M.ids) o.defs fss →
        c.2 = .bits ((List.range R).map (fun r => fss.flatten.map (fun f =>
          Bits.Spec.field (BitTable.Spec.bitsOf s.attrs.dataType (bytesAt (w.content q) (start + r * L + s.off.toNat) s.size)) f.1 f.2))))) (by
    intro d params hp hd
    obtain ⟨out, N, h1, h2, h3, h4⟩ := Product.C119_table M.ids ff src hvax (mapLeaves g tree) params hp kids v record start b
      first first' rest rest' L R hblock hobj.pointer hrec hstart hext hsays' hread hbin hname hR hpos hlen val hplain hbits
    refine ⟨.table out, N, ⟨out, rfl, h2, h3, h4⟩, fun fuel hf ops ho => ?_⟩
    obtain ⟨ds, l1, l2, -⟩ := loader_of hobj hp ho
    unfold readObject
    rw [l1, Option.bind_some, l2 hkind]
    simp only
    unfold tableObject
    simp only
    rw [hd, h1 fuel hf ops ho])
  exact ⟨d, s0, out, e1, e2, e3, e4⟩

open Verif.Table Verif.Table.Spec Verif.Datatypes Verif.Datatypes.Spec Verif.Image Verif.Image.Spec Verif.ImageFile Verif.ImageFile.Spec Verif.Meta.Spec
  Verif.Product.Spec in
/-- **C122 (images).** The same for an image with one band. -/
theorem C122_image (w : Disk D) (M : Machine D O) (p file label : D × Str) (text : Str) (tree : MDict Str) (g : Str → Val)
    (limit : Int) (given : Option Str) (hu : ∀ s, given = some s → isUrl s = false) (more : List D) (strict : Bool)
    (hfile : file.1 = p.1 ∧ Named w.fs p.1 p.2 file.2) (hstored : Stored w file label text tree g limit) (hmore : ∀ e ∈ more, Tidy w.fs e)
    (name : Str) (v : Val) (q : D × Str) (hobj : Object w M (mapLeaves g tree) (file.1 :: more) file name v q) (hkind : Read.Spec.IsImage name)
    (kids : MDict Val) (record : Option Nat) (start : Nat) (i : ImageBlock) (t : Str) (n pre suf : Nat) (d : Dtype)
    (hblock : First name (mapLeaves g tree) (.node kids))
    (hrec : RecordSize (mapLeaves g tree) kids record) (hstart : Starts record v start) (hext : Extent (mapLeaves g tree) kids)
    (hsays : ImageSays kids i t) (hname : ¬ c!"QUBE" <:+: name)
    (ht : Datatypes.Spec.Means (underscored t) n d) (hdir : Direct t) (hn : 0 < n) (hbits : i.sampleBits = 8 * n)
    (hpre : i.linePrefixBytes.getD 0 = pre * n) (hsuf : i.lineSuffixBytes.getD 0 = suf * n) (hb : i.bands.getD 1 = 1)
    (hen : start + i.lines * (pre + i.lineSamples + suf) * n ≤ (w.content q).length) (first width : Nat)
    (hwhich : c!"PREFIX" <:+: name ∧ 0 < pre ∧ first = 0 ∧ width = pre ∨
      ¬ c!"PREFIX" <:+: name ∧ c!"SUFFIX" <:+: name ∧ 0 < suf ∧ first = pre + i.lineSamples ∧ width = suf ∨
      ¬ c!"PREFIX" <:+: name ∧ ¬ c!"SUFFIX" <:+: name ∧ first = pre ∧ width = i.lineSamples) :
    ∃ data s0 A, read w M given p none more false limit strict = .ok (some (data, s0)) ∧ name ∈ s0.index ∧
      (∃ N, ∀ fuel ≥ N, ∀ ops s, Load.Run (env w M data fuel) s0 ops s → (Load.get (env w M data fuel) s name).2 = .value (some (.image A))) ∧
      A.shape = [i.lines, width] ∧
      ∀ l s x, l < i.lines → s < width → At (w.content q) start d (l * (pre + i.lineSamples + suf) + first + s) x →
        ImageFile.Spec.Has A [l, s] x := by
  obtain ⟨data, s0, x, e1, e2, e3, A, rfl, e4⟩ := product_value w M hu more strict hfile hstored hmore hobj.toQuiet hobj.shown hobj.pointer
    (starts_value hstart) hobj.file (fun x => ∃ A, x = .image A ∧ A.shape = [i.lines, width] ∧
      ∀ l s x, l < i.lines → s < width → At (w.content q) start d (l * (pre + i.lineSamples + suf) + first + s) x →
        ImageFile.Spec.Has A [l, s] x) (by
    intro data params hp hd
    obtain ⟨A, h1, h2, h3⟩ := Product.C120_image ⟨w.compressed q, w.content q, M.vax⟩ (mapLeaves g tree) params hp name kids v record start i t n pre suf d
      hblock hobj.pointer hrec hstart hext hsays hname ht hdir hn hbits hpre hsuf hb hen first width hwhich
    refine ⟨.image A, 0, ⟨A, rfl, h2, h3⟩, fun fuel hf ops ho => ?_⟩
    obtain ⟨ds, l1, -, l2⟩ := loader_of hobj hp ho
    unfold readObject
    rw [l1, Option.bind_some, l2 hkind]
    simp only
    unfold Read.imageObject
    rw [h1 ops ho]
    rfl)
  exact ⟨data, s0, A, e1, e2, e3, e4⟩

open Verif.Table Verif.Table.Spec Verif.Datatypes Verif.Datatypes.Spec Verif.Image Verif.Image.Spec Verif.ImageFile Verif.ImageFile.Spec Verif.Meta.Spec
  Verif.Product.Spec in
/-- **C122 (bands).** … and for an image with several bands. -/
theorem C122_bands (w : Disk D) (M : Machine D O) (p file label : D × Str) (text : Str) (tree : MDict Str) (g : Str → Val)
    (limit : Int) (given : Option Str) (hu : ∀ s, given = some s → isUrl s = false) (more : List D) (strict : Bool)
    (hfile : file.1 = p.1 ∧ Named w.fs p.1 p.2 file.2) (hstored : Stored w file label text tree g limit) (hmore : ∀ e ∈ more, Tidy w.fs e)
    (name : Str) (v : Val) (q : D × Str) (hobj : Object w M (mapLeaves g tree) (file.1 :: more) file name v q) (hkind : Read.Spec.IsImage name)
    (kids : MDict Val) (record : Option Nat) (start : Nat) (i : ImageBlock) (t : Str) (n B : Nat) (d : Dtype) (st : Storage)
    (hblock : First name (mapLeaves g tree) (.node kids))
    (hrec : RecordSize (mapLeaves g tree) kids record) (hstart : Starts record v start) (hext : Extent (mapLeaves g tree) kids)
    (hsays : ImageSays kids i t) (hname : ¬ c!"QUBE" <:+: name ∧ ¬ c!"PREFIX" <:+: name ∧ ¬ c!"SUFFIX" <:+: name)
    (ht : Datatypes.Spec.Means (underscored t) n d) (hdir : Direct t) (hn : 0 < n) (hbits : i.sampleBits = 8 * n)
    (hpre : i.linePrefixBytes.getD 0 = 0) (hsuf : i.lineSuffixBytes.getD 0 = 0) (hb : i.bands = some B) (hB : 1 < B)
    (hbst : i.bst ≠ none) (hst : StorageOf i.bst st)
    (hen : start + B * i.lines * i.lineSamples * n ≤ (w.content q).length) :
    ∃ data s0 A, read w M given p none more false limit strict = .ok (some (data, s0)) ∧ name ∈ s0.index ∧
      (∃ N, ∀ fuel ≥ N, ∀ ops s, Load.Run (env w M data fuel) s0 ops s → (Load.get (env w M data fuel) s name).2 = .value (some (.image A))) ∧
      A.shape = [B, i.lines, i.lineSamples] ∧
      ∀ k l s x, k < B → l < i.lines → s < i.lineSamples → At (w.content q) start d (position st B i.lines i.lineSamples k l s) x →
        ImageFile.Spec.Has A [k, l, s] x := by
  obtain ⟨data, s0, x, e1, e2, e3, A, rfl, e4⟩ := product_value w M hu more strict hfile hstored hmore hobj.toQuiet hobj.shown hobj.pointer
    (starts_value hstart) hobj.file (fun x => ∃ A, x = .image A ∧ A.shape = [B, i.lines, i.lineSamples] ∧
      ∀ k l s x, k < B → l < i.lines → s < i.lineSamples → At (w.content q) start d (position st B i.lines i.lineSamples k l s) x →
        ImageFile.Spec.Has A [k, l, s] x) (by
    intro data params hp hd
    obtain ⟨A, h1, h2, h3⟩ := Product.C120_bands ⟨w.compressed q, w.content q, M.vax⟩ (mapLeaves g tree) params hp name kids v record start i t n B d st
      hblock hobj.pointer hrec hstart hext hsays hname ht hdir hn hbits hpre hsuf hb hB hbst hst hen
    refine ⟨.image A, 0, ⟨A, rfl, h2, h3⟩, fun fuel hf ops ho => ?_⟩
    obtain ⟨ds, l1, -, l2⟩ := loader_of hobj hp ho
    unfold readObject
    rw [l1, Option.bind_some, l2 hkind]
    simp only
    unfold Read.imageObject
    rw [h1 ops ho]
    rfl)
  exact ⟨data, s0, A, e1, e2, e3, e4⟩

/-! ### text -/

section text
open Verif.Product

theorem text_not_binary {P : Ascii.Pandas} {ids : BitTable.Ids} {files : Files} {fuel : Nat} {content : Str} {s : State} {name : Str}
    {out : List (Str × Ascii.Cells)} (src : Table.Source) (hR : src.R = P.R) (hlen : content.length = src.file.length)
    (h : textTable P ids files fuel content s name = some (.ok (some out))) : Product.table ids files fuel src s name = some (.ok none) := by
  unfold textTable at h
  unfold Product.table
  rw [hlen] at h
  cases hl : locate s name src.file.length with
  | none => rw [hl] at h; cases h
  | some l =>
    rw [hl] at h
    simp only [Option.bind_eq_bind, Option.bind_some] at h ⊢
    rw [hR]
    cases ht : tableBlock P.R files fuel name l.1 with
    | none => rw [ht] at h; cases h
    | some tb =>
      rw [ht] at h
      simp only [Option.bind_some] at h ⊢
      cases hd : optField toStr l.1 c!"FIELD_DELIMITER" with
      | none => rw [hd] at h; cases h
      | some delim =>
        rw [hd] at h
        simp only [Option.bind_some] at h
        cases hs : l.2.2.2.2 with
        | error e => rw [hs] at h; cases h
        | ok start =>
          rw [hs] at h
          simp only at h ⊢
          cases hp : Locate.tablePosition l.2.2.1 (recordType s) name (some l.2.1) l.2.2.2.1 start with
          | error e => rw [hp] at h; cases h
          | ok p =>
            rw [hp] at h
            simp only at h ⊢
            unfold BitTable.readBitTable
            cases hb : BitTable.addBitsAll ids tb.defs with
            | error e => rw [hb] at h; cases h
            | ok defs =>
              rw [hb] at h
              simp only at h ⊢
              unfold Ascii.readAscii Ascii.formatOf at h
              cases hps : Table.parseStructure { tb with defs := defs } with
              | error e => rw [hps] at h; cases h
              | ok r =>
                rw [hps] at h
                obtain ⟨rows, o⟩ := r
                cases o with
                | none => rfl
                | some c => cases h

theorem mapM_none {α β : Type} {f : α → Option β} {l : List α} {a : α} (ha : a ∈ l) (h : f a = none) : l.mapM f = none := by
  induction l with
  | nil => cases ha
  | cons x l ih =>
    rw [List.mapM_cons]
    rcases List.mem_cons.1 ha with rfl | ha
    · rw [h]; rfl
    · rw [ih ha]
      cases f x <;> rfl

theorem mapM_some_mem {α β : Type} {f : α → Option (List β)} {l : List α} {r : List β} (h : (l.mapM f).map List.flatten = some r) (hr : r ≠ []) :
    ∃ a ∈ l, ∃ x, x ≠ [] ∧ f a = some x := by
  induction l generalizing r with
  | nil => simp at h; exact absurd h hr
  | cons a l ih =>
    rw [List.mapM_cons] at h
    cases ha : f a with
    | none => rw [ha] at h; cases h
    | some x =>
      rw [ha] at h
      cases x with
      | cons y x => exact ⟨a, .head _, y :: x, by simp, ha⟩
      | nil =>
        cases hm : l.mapM f with
        | none => rw [hm] at h; cases h
        | some ls =>
          rw [hm] at h
          simp at h
          obtain ⟨b, hb, y⟩ := ih (r := r) (by rw [hm]; simpa using h) hr
          exact ⟨b, List.mem_cons_of_mem _ hb, y⟩

theorem sheet_not_binary {R : Float.Rounding Float.double} {files : Files} {bytes : Bool} {b : MDict Val} {fs : List Ascii.Field}
    (h : Product.Spec.SheetFields R files bytes b fs) (hne : fs ≠ []) (name : Str) : ∃ N, ∀ n ≥ N, tableBlock R files n name b = none := by
  obtain ⟨b', he, hd⟩ := sheet_flat h
  obtain ⟨N, hN⟩ := expands_all he
  refine ⟨N + 1, fun n hn => ?_⟩
  obtain ⟨n, rfl⟩ : ∃ m, n = m + 1 := ⟨n - 1, by omega⟩
  have hnone : defsOf R files (n + 1) b = none := by
    rw [defsOf, hN n (by omega), Option.bind_some]
    obtain ⟨e, he, hen⟩ : ∃ e ∈ b', entryDefs R files (defsOf R files n) e = none := by
      obtain ⟨⟨k, t⟩, he, x, hx, hf⟩ := mapM_some_mem hd (by simpa using hne)
      refine ⟨_, he, ?_⟩
      cases t with
      | leaf v =>
        rw [entryFields] at hf
        split at hf
        · cases hf
        · injection hf with hf; exact absurd hf.symm hx
      | node kids =>
        rw [entryFields] at hf
        split at hf
        · rename_i hk
          rw [entryDefs, if_pos hk]
          suffices columnDef R files kids = none by rw [this]; rfl
          obtain ⟨d, hfd, -⟩ := Option.map_eq_some_iff.1 hf
          unfold fieldDef at hfd
          unfold columnDef
          cases hc : columnText files kids with
          | none => rfl
          | some b =>
            rw [hc] at hfd
            simp only [Option.bind_eq_bind, Option.bind_some] at hfd ⊢
            split at hfd
            · cases hfd
            · rename_i hno
              simp only [Bool.or_eq_true, not_or, Bool.not_eq_true] at hno
              have hst : reqField toInt b c!"START_BYTE" = none := by
                have := hno.2
                unfold has at this
                unfold reqField optField
                cases hq : Product.field b c!"START_BYTE" with
                | none => rfl
                | some v => rw [hq] at this; cases this
              rw [hst]
              simp
        · split at hf
          · cases hf
          · injection hf with hf; exact absurd hf.symm hx
    rw [mapM_none he hen]
    rfl
  unfold tableBlock
  split
  · rfl
  · rw [hnone]
    simp

end text

open Verif.Table Verif.Table.Spec Verif.Ascii Verif.Ascii.Spec Verif.Format Verif.Format.Spec Verif.Meta.Spec Verif.Product.Spec in
/-- **C122 (text tables).** The same for a text table: if the lines hold as many fields as the label has columns, the columns show these;
the file is decoded to one character per byte. -/
theorem C122_delimited (w : Disk D) (M : Machine D O) (hdec : ∀ bs, (M.decode bs).length = bs.length) (p file label : D × Str) (text : Str)
    (tree : MDict Str) (g : Str → Val)
    (limit : Int) (given : Option Str) (hu : ∀ s, given = some s → isUrl s = false) (more : List D) (strict : Bool)
    (hfile : file.1 = p.1 ∧ Named w.fs p.1 p.2 file.2) (hstored : Stored w file label text tree g limit) (hmore : ∀ e ∈ more, Tidy w.fs e)
    (b : Table.Block) (v : Val) (q : D × Str) (hobj : Object w M (mapLeaves g tree) (file.1 :: more) file b.name v q) (hkind : IsTable b.name)
    (files : Files) (hfiles : FormatFiles w (file.1 :: more) files)
    (kids : MDict Val) (record : Option Nat) (start : Nat) (pos : Locate.TablePos) (first first' : Col) (rest rest' : List Format.Spec.Entry)
    (delim : Option Str) (hblock : First b.name (mapLeaves g tree) (.node kids))
    (hrec : RecordSize (mapLeaves g tree) kids record) (hstart : Starts record v start) (hext : Extent (mapLeaves g tree) kids)
    (hat : TextAt (mapLeaves g tree) kids b.name v start pos)
    (hsays : TableSays M.pandas.R files kids b (.col first :: rest))
    (hread : List.Forall₂ (BitTable.Spec.EntryReadAs M.ids) (.col first :: rest) (.col first' :: rest'))
    (hdelim : OptStr kids c!"FIELD_DELIMITER" delim) (hname : ¬ c!"HISTOGRAM" <:+: b.name ∧ b.name ≠ c!"CONTAINER")
    (hlaid : Laid { b with defs := (Entry.col first' :: rest').map Entry.toDef } first' rest') (htext : IsText b (.col first' :: rest'))
    (sep : Char) (hsep : Separates delim sep) (lines : List Str) (hl : TableLines (M.decode (w.content q)) pos lines) (rows : List (List Str))
    (hr : Delimited sep lines rows) (hf : Fits (slots (b.rowPrefix.getD 0) (.col first' :: rest')).length rows)
    (hm : ∀ i < (slots (b.rowPrefix.getD 0) (.col first' :: rest')).length, ∀ vs, M.pandas.csv (Ascii.Spec.field rows i) ≠ .mixed vs)
    (hscale : ∀ (k : Nat) s, (slots (b.rowPrefix.getD 0) (.col first' :: rest'))[k]? = some s →
      ∀ c, Shown M.pandas.csv M.pandas.missing (Trimmed pads) (Ascii.Spec.field rows k) c → CanScale s.attrs c)
    (hnd : (columnNames (b.rowPrefix.getD 0) (.col first' :: rest')).Nodup ∨
      ∀ s ∈ slots (b.rowPrefix.getD 0) (.col first' :: rest'), Unscaled s.attrs) :
    ∃ d s0 out, read w M given p none more false limit strict = .ok (some (d, s0)) ∧ b.name ∈ s0.index ∧
      (∃ N, ∀ fuel ≥ N, ∀ ops s, Load.Run (env w M d fuel) s0 ops s → (Load.get (env w M d fuel) s b.name).2 = .value (some (.text out))) ∧
      out.map Prod.fst = columnNames (b.rowPrefix.getD 0) (.col first' :: rest') ∧
      ∀ (k : Nat) s c, (slots (b.rowPrefix.getD 0) (.col first' :: rest'))[k]? = some s → out[k]? = some c →
        ∃ x, Shown M.pandas.csv M.pandas.missing (Trimmed pads) (Ascii.Spec.field rows k) x ∧ ScaledAs s.attrs x c.2 := by
  have hsays' := table_mono (files_mono M q (tidy_paths hstored hmore) hfiles) hsays
  set ff := formatFile w M (file.1 :: more) q with hff
  obtain ⟨d, s0, x, e1, e2, e3, out, rfl, e4⟩ := product_value w M hu more strict hfile hstored hmore hobj.toQuiet hobj.shown hobj.pointer
    (starts_value hstart) hobj.file (fun x => ∃ out, x = .text out ∧
      out.map Prod.fst = columnNames (b.rowPrefix.getD 0) (.col first' :: rest') ∧
      ∀ (k : Nat) s c, (slots (b.rowPrefix.getD 0) (.col first' :: rest'))[k]? = some s → out[k]? = some c →
        ∃ x, Shown M.pandas.csv M.pandas.missing (Trimmed pads) (Ascii.Spec.field rows k) x ∧ ScaledAs s.attrs x c.2) (by
    intro d params hp hd
    obtain ⟨out, N, h1, h2⟩ := Product.C121_delimited M.pandas M.ids ff (M.decode (w.content q)) (mapLeaves g tree) params hp kids v record start pos b
      first first' rest rest' delim hblock hobj.pointer hrec hstart hext hat hsays' hread hdelim hname hlaid htext sep hsep lines hl rows hr hf hm hscale hnd
    refine ⟨.text out, N, ⟨out, rfl, h2⟩, fun fuel hf ops ho => ?_⟩
    obtain ⟨ds, l1, l2, -⟩ := loader_of hobj hp ho
    unfold readObject
    rw [l1, Option.bind_some, l2 hkind]
    simp only
    unfold tableObject
    simp only
    rw [hd, text_not_binary ⟨w.compressed q, w.content q, M.cp500, M.vax32, M.pandas.R, M.pandas.R'⟩ rfl (hdec _) (h1 fuel hf ops ho), h1 fuel hf ops ho]
    rfl)
  exact ⟨d, s0, out, e1, e2, e3, e4⟩

open Verif.Table Verif.Table.Spec Verif.Ascii Verif.Ascii.Spec Verif.Format Verif.Format.Spec Verif.Meta.Spec Verif.Product.Spec in
/-- **C122 (fixed columns).** … and otherwise the columns show the characters at the places of the label. -/
theorem C122_fixed (w : Disk D) (M : Machine D O) (hdec : ∀ bs, (M.decode bs).length = bs.length) (p file label : D × Str) (text : Str)
    (tree : MDict Str) (g : Str → Val)
    (limit : Int) (given : Option Str) (hu : ∀ s, given = some s → isUrl s = false) (more : List D) (strict : Bool)
    (hfile : file.1 = p.1 ∧ Named w.fs p.1 p.2 file.2) (hstored : Stored w file label text tree g limit) (hmore : ∀ e ∈ more, Tidy w.fs e)
    (b : Table.Block) (v : Val) (q : D × Str) (hobj : Object w M (mapLeaves g tree) (file.1 :: more) file b.name v q) (hkind : IsTable b.name)
    (files : Files) (hfiles : FormatFiles w (file.1 :: more) files)
    (kids : MDict Val) (record : Option Nat) (start : Nat) (pos : Locate.TablePos) (first first' : Col) (rest rest' : List Format.Spec.Entry)
    (delim : Option Str) (hblock : First b.name (mapLeaves g tree) (.node kids))
    (hrec : RecordSize (mapLeaves g tree) kids record) (hstart : Starts record v start) (hext : Extent (mapLeaves g tree) kids)
    (hat : TextAt (mapLeaves g tree) kids b.name v start pos)
    (hsays : TableSays M.pandas.R files kids b (.col first :: rest))
    (hread : List.Forall₂ (BitTable.Spec.EntryReadAs M.ids) (.col first :: rest) (.col first' :: rest'))
    (hdelim : OptStr kids c!"FIELD_DELIMITER" delim) (hname : ¬ c!"HISTOGRAM" <:+: b.name ∧ b.name ≠ c!"CONTAINER")
    (hlaid : Laid { b with defs := (Entry.col first' :: rest').map Entry.toDef } first' rest') (htext : IsText b (.col first' :: rest'))
    (sep : Char) (hsep : Separates delim sep) (lines : List Str) (hl : TableLines (M.decode (w.content q)) pos lines) (rows : List (List Str))
    (hr : Delimited sep lines rows) (hne : rows ≠ [])
    (hnot : ¬ Fits (slots (b.rowPrefix.getD 0) (.col first' :: rest')).length rows ∨
      ∃ i < (slots (b.rowPrefix.getD 0) (.col first' :: rest')).length, ∃ vs, M.pandas.csv (Ascii.Spec.field rows i) = .mixed vs)
    (hink : ∃ l ∈ lines, ∃ s ∈ slots (b.rowPrefix.getD 0) (.col first' :: rest'), ∃ c ∈ charsAt l s, Ink c)
    (hscale : ∀ keep, Keeps (slots (b.rowPrefix.getD 0) (.col first' :: rest')) keep →
      ∀ s ∈ slots (b.rowPrefix.getD 0) (.col first' :: rest'), ∀ c, ShownAt M.pandas lines keep s c → CanScale s.attrs c)
    (hnd : (columnNames (b.rowPrefix.getD 0) (.col first' :: rest')).Nodup ∨
      ∀ s ∈ slots (b.rowPrefix.getD 0) (.col first' :: rest'), Unscaled s.attrs) :
    ∃ d s0 out, read w M given p none more false limit strict = .ok (some (d, s0)) ∧ b.name ∈ s0.index ∧
      (∃ N, ∀ fuel ≥ N, ∀ ops s, Load.Run (env w M d fuel) s0 ops s → (Load.get (env w M d fuel) s b.name).2 = .value (some (.text out))) ∧
      ∃ keep, Keeps (slots (b.rowPrefix.getD 0) (.col first' :: rest')) keep ∧
      out.map Prod.fst = columnNames (b.rowPrefix.getD 0) (.col first' :: rest') ∧
      ∀ (k : Nat) s c, (slots (b.rowPrefix.getD 0) (.col first' :: rest'))[k]? = some s → out[k]? = some c →
        ∃ x, ShownAt M.pandas lines keep s x ∧ ScaledAs s.attrs x c.2 := by
  have hsays' := table_mono (files_mono M q (tidy_paths hstored hmore) hfiles) hsays
  set ff := formatFile w M (file.1 :: more) q with hff
  obtain ⟨d, s0, x, e1, e2, e3, out, rfl, e4⟩ := product_value w M hu more strict hfile hstored hmore hobj.toQuiet hobj.shown hobj.pointer
    (starts_value hstart) hobj.file (fun x => ∃ out, x = .text out ∧
      ∃ keep, Keeps (slots (b.rowPrefix.getD 0) (.col first' :: rest')) keep ∧
      out.map Prod.fst = columnNames (b.rowPrefix.getD 0) (.col first' :: rest') ∧
      ∀ (k : Nat) s c, (slots (b.rowPrefix.getD 0) (.col first' :: rest'))[k]? = some s → out[k]? = some c →
        ∃ x, ShownAt M.pandas lines keep s x ∧ ScaledAs s.attrs x c.2) (by
    intro d params hp hd
    obtain ⟨out, keep, N, h1, h2⟩ := Product.C121_fixed M.pandas M.ids ff (M.decode (w.content q)) (mapLeaves g tree) params hp kids v record start pos b
      first first' rest rest' delim hblock hobj.pointer hrec hstart hext hat hsays' hread hdelim hname hlaid htext sep hsep lines hl rows hr hne hnot hink hscale hnd
    refine ⟨.text out, N, ⟨out, rfl, keep, h2⟩, fun fuel hf ops ho => ?_⟩
    obtain ⟨ds, l1, l2, -⟩ := loader_of hobj hp ho
    unfold readObject
    rw [l1, Option.bind_some, l2 hkind]
    simp only
    unfold tableObject
    simp only
    rw [hd, text_not_binary ⟨w.compressed q, w.content q, M.cp500, M.vax32, M.pandas.R, M.pandas.R'⟩ rfl (hdec _) (h1 fuel hf ops ho), h1 fuel hf ops ho]
    rfl)
  exact ⟨d, s0, out, e1, e2, e3, e4⟩

open Verif.Table Verif.Table.Spec Verif.Ascii Verif.Ascii.Spec Verif.Format Verif.Format.Spec Verif.Meta.Spec Verif.Product.Spec in
/-- **C122 (spreadsheets).** The same for a SPREADSHEET, the FIELDs of which have no places. -/
theorem C122_spreadsheet (w : Disk D) (M : Machine D O) (p file label : D × Str) (text : Str)
    (tree : MDict Str) (g : Str → Val)
    (limit : Int) (given : Option Str) (hu : ∀ s, given = some s → isUrl s = false) (more : List D) (strict : Bool)
    (hfile : file.1 = p.1 ∧ Named w.fs p.1 p.2 file.2) (hstored : Stored w file label text tree g limit) (hmore : ∀ e ∈ more, Tidy w.fs e)
    (name : Str) (v : Val) (q : D × Str) (hobj : Object w M (mapLeaves g tree) (file.1 :: more) file name v q) (hkind : IsTable name)
    (files : Files) (hfiles : FormatFiles w (file.1 :: more) files)
    (kids : MDict Val) (record : Option Nat) (start : Nat) (pos : Locate.TablePos) (bytes : Bool) (fields : List Field) (delim : Option Str)
    (hblock : First name (mapLeaves g tree) (.node kids))
    (hrec : RecordSize (mapLeaves g tree) kids record) (hstart : Starts record v start) (hext : Extent (mapLeaves g tree) kids)
    (hat : TextAt (mapLeaves g tree) kids name v start pos)
    (hsays : SheetFields M.pandas.R files bytes kids fields) (hne : fields ≠ [])
    (hdelim : OptStr kids c!"FIELD_DELIMITER" delim) (hname : c!"SPREADSHEET" <:+: name ∧ ¬ c!"HISTOGRAM" <:+: name)
    (hres : (fields.flatMap (fun f => List.replicate (copies f.items) f.name)).count c!"RESERVED" ≤ 1)
    (hnames : ∀ n ∈ fieldNames fields, ¬ c!"PLACEHOLDER" <:+: n)
    (sep : Char) (hsep : Separates delim sep) (lines : List Str) (hl : TableLines (M.decode (w.content q)) pos lines) (rows : List (List Str))
    (hr : Delimited sep lines rows) (hf : Fits (fieldNames fields).length rows)
    (hm : ∀ i < (fieldNames fields).length, ∀ vs, M.pandas.csv (Ascii.Spec.field rows i) ≠ .mixed vs)
    (hscale : ∀ (k : Nat) a, (fieldAttrs fields)[k]? = some a →
      ∀ c, Shown M.pandas.csv M.pandas.missing (Trimmed pads) (Ascii.Spec.field rows k) c → CanScale a c)
    (hnd : (fieldNames fields).Nodup ∨ ∀ a ∈ fieldAttrs fields, Unscaled a) :
    ∃ d s0 out, read w M given p none more false limit strict = .ok (some (d, s0)) ∧ name ∈ s0.index ∧
      (∃ N, ∀ fuel ≥ N, ∀ ops s, Load.Run (env w M d fuel) s0 ops s → (Load.get (env w M d fuel) s name).2 = .value (some (.text out))) ∧
      out.map Prod.fst = fieldNames fields ∧
      ∀ (k : Nat) a c, (fieldAttrs fields)[k]? = some a → out[k]? = some c →
        ∃ x, Shown M.pandas.csv M.pandas.missing (Trimmed pads) (Ascii.Spec.field rows k) x ∧ ScaledAs a x c.2 := by
  have hsays' := sheet_mono (files_mono M q (tidy_paths hstored hmore) hfiles) hsays
  set ff := formatFile w M (file.1 :: more) q with hff
  obtain ⟨d, s0, x, e1, e2, e3, out, rfl, e4⟩ := product_value w M hu more strict hfile hstored hmore hobj.toQuiet hobj.shown hobj.pointer
    (starts_value hstart) hobj.file (fun x => ∃ out, x = .text out ∧
      out.map Prod.fst = fieldNames fields ∧
      ∀ (k : Nat) a c, (fieldAttrs fields)[k]? = some a → out[k]? = some c →
        ∃ x, Shown M.pandas.csv M.pandas.missing (Trimmed pads) (Ascii.Spec.field rows k) x ∧ ScaledAs a x c.2) (by
    intro d params hp hd
    obtain ⟨out, N, h1, h2⟩ := Product.C121_spreadsheet M.pandas ff (M.decode (w.content q)) (mapLeaves g tree) params hp name kids v record start pos bytes fields
      delim hblock hobj.pointer hrec hstart hext hat hsays' hne hdelim hname hres hnames sep hsep lines hl rows hr hf hm hscale hnd
    obtain ⟨N', hN'⟩ := sheet_not_binary hsays' hne name
    refine ⟨.text out, max N N', ⟨out, rfl, h2⟩, fun fuel hf ops ho => ?_⟩
    obtain ⟨ds, l1, l2, -⟩ := loader_of hobj hp ho
    unfold readObject
    rw [l1, Option.bind_some, l2 hkind]
    simp only
    unfold tableObject
    simp only
    have hnone : Product.table M.ids ff fuel ⟨w.compressed q, w.content q, M.cp500, M.vax32, M.pandas.R, M.pandas.R'⟩
        (Meta.run Product.env (Meta.new (mapLeaves g tree) params) ops) name = none := by
      obtain ⟨blk, rb, t, l1, -⟩ := Product.locate_ok hp ho (w.content q).length hblock hobj.pointer hrec hstart hext
      unfold Product.table
      simp only
      have l1' : Product.locate (Meta.run Product.env (Meta.new (mapLeaves g tree) params) ops) name (w.content q).length =
        some (kids, blk, rb, t, .ok (start : Int)) := l1
      rw [l1']
      simp only [Option.bind_eq_bind, Option.bind_some]
      rw [hN' fuel (by omega)]
      rfl
    rw [hd, hnone, h1 fuel (by omega) ops ho]
    rfl)
  exact ⟨d, s0, out, e1, e2, e3, e4⟩

end Verif.Read
