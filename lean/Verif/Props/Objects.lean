/-
C76, C77: the objects of a PDS4 product.
-/
import Verif.Spec.Objects
import Verif.Lemmas.Pds4Names
import Verif.Props.Datatypes

namespace Verif.Objects
open Verif.Py Verif.Pvl Verif.Objects.Spec

theorem contains_iff' (s sub : Str) : contains s sub = true ↔ sub <:+: s := Verif.Datatypes.contains_iff s sub

theorem kindOf_some {tag : Str} {k : Kind} (h : HasKind tag k) : kindOf tag = some k := by
  cases k with
  | header => exact if_pos ((contains_iff' _ _).2 h)
  | array =>
    unfold kindOf
    rw [if_neg (fun c => h.2 ((contains_iff' _ _).1 c)), if_pos ((contains_iff' _ _).2 h.1)]
  | table =>
    rcases h with h | h | h | h <;> subst h <;> decide

theorem hasKind_of {tag : Str} {k : Kind} (h : kindOf tag = some k) : HasKind tag k := by
  unfold kindOf at h
  split at h
  · cases h
    exact (contains_iff' _ _).1 (by assumption)
  split at h
  · cases h
    rename_i h1 h2
    exact ⟨(contains_iff' _ _).1 h2, fun c => h1 ((contains_iff' _ _).2 c)⟩
  split at h
  · cases h
    rename_i hm
    have h2 := hm
    simp only [tableTypes, List.mem_cons, List.not_mem_nil, or_false] at h2
    exact h2
  · cases h

theorem kindOf_none {tag : Str} (h : ∀ k, ¬ HasKind tag k) : kindOf tag = none := by
  cases hk : kindOf tag with
  | none => rfl
  | some k => exact absurd (hasKind_of hk) (h k)

/-- the structures with their ids, given how many there were before -/
def number (dir : Str) : List Described → (Kind → Nat) → List Found
  | [], _ => []
  | d :: ds, n => ⟨idOf d.element d.kind (n d.kind), d.kind, d.element, joinPath dir d.file⟩ :: number dir ds (bump d.kind n)

/-- the counters afterwards -/
def after : List Described → (Kind → Nat) → (Kind → Nat)
  | [], n => n
  | d :: ds, n => after ds (bump d.kind n)

theorem number_append (dir : Str) (ds es : List Described) (n : Kind → Nat) :
    number dir (ds ++ es) n = number dir ds n ++ number dir es (after ds n) := by
  induction ds generalizing n with
  | nil => rfl
  | cons d ds ih => simp only [List.cons_append, number, after, ih]

theorem children_eq (dir : Str) {file : Str} {es : List Element} {ds : List Described} (h : Children file es ds) (n : Kind → Nat) :
    readChildren (joinPath dir file) es n = (number dir ds n, after ds n) := by
  induction h generalizing n with
  | nil => rfl
  | skip hk _ ih => simp only [readChildren, kindOf_none hk, ih]
  | data hk _ ih => simp only [readChildren, kindOf_some hk, ih, number, after]

theorem areas_eq (dir : Str) {as : List Area} {ds : List Described} (h : Areas as ds) (n : Kind → Nat) :
    readAreas dir as n = .ok (number dir ds n) := by
  induction h generalizing n with
  | nil => rfl
  | cons hc _ ih => simp only [readAreas, children_eq dir hc, ih, number_append]

theorem areasOf_eq (label : List Area) : areasOf label =
    label.filter (fun a => a.tag = c!"File_Area_Observational") ++ label.filter (fun a => a.tag = c!"File_Area_Observational_Supplemental") ++
    label.filter (fun a => a.tag = c!"File_Area_Ancillary") ++ label.filter (fun a => a.tag = c!"File_Area_Browse") ++
    label.filter (fun a => a.tag = c!"File_Area_Inventory") := by
  unfold areasOf dataAreas
  simp only [List.flatMap_cons, List.flatMap_nil, List.append_nil, List.append_assoc]

theorem structures_eq (dir : Str) {label : List Area} {ds : List Described} (h : Describes label ds) :
    readStructures dir label = .ok (number dir ds (fun _ => 0)) := by
  unfold readStructures
  rw [areasOf_eq]
  exact areas_eq dir h _

/-- how many structures of each kind -/
def tally (before : List Described) : Kind → Nat := fun k => before.countP (fun b => b.kind = k)

theorem tally_snoc (before : List Described) (d : Described) : tally (before ++ [d]) = bump d.kind (tally before) := by
  funext k
  unfold tally bump
  rw [List.countP_append]
  by_cases hk : k = d.kind
  · subst hk
    simp
  · have : ¬ d.kind = k := fun h => hk h.symm
    simp [hk, this]

theorem keyOf_idOf (before : List Described) (d : Described) : keyOf (idOf d.element d.kind (tally before d.kind)) = nameOf before d := by
  unfold keyOf nameOf idOf tally
  cases d.element.localId <;> cases d.element.name <;> cases d.kind <;> rfl

theorem number_at (dir : Str) (before : List Described) (d : Described) (rest : List Described) (start : List Described) :
    number dir (before ++ d :: rest) (tally start) = number dir before (tally start) ++
      ⟨idOf d.element d.kind (tally (start ++ before) d.kind), d.kind, d.element, joinPath dir d.file⟩ ::
        number dir rest (tally (start ++ before ++ [d])) := by
  induction before generalizing start with
  | nil => simp only [List.nil_append, number, List.append_nil, tally_snoc]
  | cons b bs ih =>
    have h := ih (start ++ [b])
    simp only [List.cons_append, number, ← tally_snoc, h, List.append_assoc, List.nil_append]

theorem names_eq (dir : Str) (ds start : List Described) :
    (number dir ds (tally start)).map (fun s => keyOf s.id) = ds.zipIdx.map (fun p => nameOf (start ++ ds.take p.2) p.1) := by
  induction ds generalizing start with
  | nil => rfl
  | cons d ds ih =>
    simp only [number, List.map_cons, List.zipIdx_cons, List.take_zero, List.append_nil, keyOf_idOf, ← tally_snoc, ih (start ++ [d])]
    congr 1
    rw [List.zipIdx_succ, List.map_map]
    exact List.map_congr_left (fun p _ => by simp [List.append_assoc])

theorem number_names (dir : Str) (ds : List Described) : (number dir ds (fun _ => 0)).map (fun s => keyOf s.id) = namesOf ds := by
  have h := names_eq dir ds []
  have h0 : tally [] = (fun _ => 0) := rfl
  rw [h0] at h
  simpa [namesOf] using h

theorem mem_later {dir : Str} {rest start : List Described} {s : Found} (h : s ∈ number dir rest (tally start)) :
    ∃ mid e after, rest = mid ++ e :: after ∧ keyOf s.id = nameOf (start ++ mid) e := by
  induction rest generalizing start with
  | nil => cases h
  | cons d ds ih =>
    simp only [number, ← tally_snoc, List.mem_cons] at h
    rcases h with h | h
    · subst h
      exact ⟨[], d, ds, rfl, by simpa using keyOf_idOf start d⟩
    · obtain ⟨mid, e, aft, h1, h2⟩ := ih h
      refine ⟨d :: mid, e, aft, by rw [h1, List.cons_append], ?_⟩
      rw [h2, List.append_assoc]
      rfl

theorem startsWith_slash (f : Str) : startsWith f c!"/" = true ↔ f.head? = some '/' := by
  cases f with
  | nil => decide
  | cons c f =>
    rw [startsWith_iff]
    constructor
    · rintro ⟨r, hr⟩
      rw [hr]
      rfl
    · intro h
      have : c = '/' := by simpa using h
      exact ⟨f, by rw [this]; rfl⟩

theorem endsWith_slash (f : Str) : endsWith f c!"/" = true ↔ f.getLast? = some '/' := by
  unfold endsWith
  rw [List.isSuffixOf_iff_suffix]
  constructor
  · rintro ⟨r, rfl⟩
    simp
  · intro h
    obtain ⟨r, hr⟩ := List.getLast?_eq_some_iff.1 h
    exact ⟨r, hr.symm⟩

theorem joinPath_ok (dir file : Str) : Located dir file (joinPath dir file) := by
  refine ⟨fun h => ?_, fun h h' => ?_, fun h h1 h2 => ?_⟩
  · exact if_pos ((startsWith_slash _).2 h)
  · unfold joinPath
    rw [if_neg (fun c => h ((startsWith_slash _).1 c)), if_pos (h'.imp_right (endsWith_slash _).2)]
  · unfold joinPath
    rw [if_neg (fun c => h ((startsWith_slash _).1 c)), if_neg (by
      rintro (c | c)
      · exact h1 c
      · exact h2 ((endsWith_slash _).1 c))]
    simp

/-- what the product is -/
theorem open_eq (dir : Str) {label : List Area} {ds : List Described} (h : Describes label ds) :
    openPds4 dir label = .ok ⟨namesOf ds ++ [c!"label"],
      (number dir ds (fun _ => 0)).map (fun s => (keyOf s.id, Target.structure s)) ++ [(c!"label", Target.label)]⟩ := by
  unfold openPds4
  simp only [structures_eq dir h]
  simp only [List.map_append, List.map_map, List.map_cons, List.map_nil, ← number_names dir ds]
  rfl

theorem get_label (ix : List Str) (es : List (Str × Target)) : Product4.get ⟨ix, es ++ [(c!"label", Target.label)]⟩ c!"label" = .ok .label := by
  simp [Product4.get]

/-- the structure is given out if no later one has the same name -/
theorem get_structure (dir : Str) (ix : List Str) (before : List Described) (d : Described) (rest : List Described)
    (hl : nameOf before d ≠ c!"label") (hr : ∀ mid e aft, rest = mid ++ e :: aft → nameOf (before ++ d :: mid) e ≠ nameOf before d) :
    Product4.get ⟨ix, (number dir (before ++ d :: rest) (fun _ => 0)).map (fun s => (keyOf s.id, Target.structure s)) ++
      [(c!"label", Target.label)]⟩ (nameOf before d) =
    .ok (.structure ⟨idOf d.element d.kind (tally before d.kind), d.kind, d.element, joinPath dir d.file⟩) := by
  have hn := number_at dir before d rest []
  have h0 : tally [] = (fun _ => 0) := rfl
  rw [h0, List.nil_append] at hn
  rw [hn]
  unfold Product4.get
  simp only [List.map_append, List.map_cons, List.reverse_append, List.reverse_cons, List.reverse_nil, List.nil_append,
    List.cons_append, List.append_assoc]
  rw [List.find?_cons_of_neg (by simpa using fun h : c!"label" = nameOf before d => hl h.symm), List.find?_append]
  have hnone : ((number dir rest (tally (before ++ [d]))).map (fun s => (keyOf s.id, Target.structure s))).reverse.find?
      (fun e => e.1 = nameOf before d) = none := by
    rw [List.find?_eq_none]
    intro x hx hxn
    rw [List.mem_reverse, List.mem_map] at hx
    obtain ⟨s, hs, rfl⟩ := hx
    obtain ⟨mid, e, aft, h1, h2⟩ := mem_later hs
    have := hr mid e aft h1
    rw [List.append_assoc] at h2
    exact this (h2.symm.trans (by simpa using hxn))
  rw [hnone, Option.none_or, List.find?_cons_of_pos (by simp [keyOf_idOf])]

theorem kindName_inj {j k : Kind} {x y : Str} (h : kindName j ++ x = kindName k ++ y) : j = k := by
  cases j <;> cases k <;> first | rfl | exact absurd h (by simp [kindName])

theorem underscore_map (s : Str) (h : ' ' ∉ s) : s.map (fun c => if c = ' ' then '_' else c) = s := by
  induction s with
  | nil => rfl
  | cons c s ih =>
    rw [List.map_cons, if_neg (fun hc : c = ' ' => h (by rw [hc]; exact List.mem_cons_self)), ih (fun hm => h (List.mem_cons_of_mem _ hm))]

theorem made_name {before : List Described} {d : Described} (h1 : d.element.localId = none) (h2 : d.element.name = none) :
    nameOf before d = kindName d.kind ++ c!"_" ++ natStr (before.countP (fun b => b.kind = d.kind)) := by
  unfold nameOf
  rw [h1, h2]
  refine underscore_map _ ?_
  simp only [Option.orElse_none, Option.getD_none, List.mem_append, not_or]
  refine ⟨⟨by cases d.kind <;> decide, by decide⟩, fun h => ?_⟩
  have := Pds4Table.natStr_digit h
  exact absurd this (by decide)

theorem made_differ (as bs : List Described) (d e : Described) (h1 : d.element.localId = none) (h2 : d.element.name = none)
    (h3 : e.element.localId = none) (h4 : e.element.name = none) : nameOf as d ≠ nameOf (as ++ d :: bs) e := by
  rw [made_name h1 h2, made_name h3 h4]
  intro h
  rw [List.append_assoc, List.append_assoc] at h
  have hk := kindName_inj h
  rw [hk, List.append_cancel_left_eq, List.append_cancel_left_eq] at h
  have := Pds4Table.natStr_inj h
  rw [List.countP_append, List.countP_cons] at this
  simp [hk] at this

/-- **C76**: A PDS4 label's data structures are those of its file areas, each with the element that describes it and its
file's path. The opened product lists them all, in order, by local identifier, else name, else kind and number, with `_` for
spaces, and the label at the end; and every name, unless there is a later structure with the same name, stands for the
structure it is the name of. Made-up names of different structures differ. -/
theorem C76_pds4_objects (dir : Str) (label : List Area) (ds : List Described) (h : Describes label ds) :
    ∃ p, openPds4 dir label = .ok p ∧ p.index = namesOf ds ++ [c!"label"] ∧ p.get c!"label" = .ok .label ∧
      ∀ before d rest, ds = before ++ d :: rest →
        (nameOf before d ≠ c!"label" → (∀ mid e last, rest = mid ++ e :: last → nameOf (before ++ d :: mid) e ≠ nameOf before d) →
          ∃ s, p.get (nameOf before d) = .ok (.structure s) ∧ Found.Is dir d s) ∧
        (d.element.localId = none → d.element.name = none → ∀ mid e last, rest = mid ++ e :: last → e.element.localId = none →
          e.element.name = none → nameOf (before ++ d :: mid) e ≠ nameOf before d) := by
  refine ⟨_, open_eq dir h, rfl, get_label _ _, ?_⟩
  intro before d rest hds
  subst hds
  refine ⟨fun hl hr => ⟨_, get_structure dir _ before d rest hl hr, rfl, rfl, joinPath_ok _ _⟩, ?_⟩
  intro h1 h2 mid e last _ h3 h4
  exact (made_differ before mid d e h1 h2 h3 h4).symm

/-- an element with this tag, and its local identifier and name -/
def el (tag : Str) (localId name : Option Str := none) : Element := ⟨tag, localId, name⟩

/-- a browse area before two observational ones -/
def demoLabel : List Area :=
  [⟨c!"Identification_Area", none, [el c!"Array"]⟩,
   ⟨c!"File_Area_Browse", some c!"/b.img", [el c!"File", el c!"Array_2D_Image"]⟩,
   ⟨c!"File_Area_Observational", some c!"a.dat", [el c!"File", el c!"Header" none (some c!"The header"), el c!"Array_3D_Image"]⟩,
   ⟨c!"File_Area_Observational", some c!"t.csv", [el c!"File", el c!"Table_Delimited" (some c!"T1") (some c!"a table"), el c!"Table_Binary"]⟩]

theorem demo_describes : Describes demoLabel
    [⟨el c!"Header" none (some c!"The header"), .header, c!"a.dat"⟩, ⟨el c!"Array_3D_Image", .array, c!"a.dat"⟩,
     ⟨el c!"Table_Delimited" (some c!"T1") (some c!"a table"), .table, c!"t.csv"⟩, ⟨el c!"Table_Binary", .table, c!"t.csv"⟩,
     ⟨el c!"Array_2D_Image", .array, c!"/b.img"⟩] := by
  have hn : ∀ k, ¬ HasKind c!"File" k := by
    intro k hk
    have := kindOf_some hk
    revert this
    cases k <;> decide
  refine Areas.cons (ds := [_, _]) (.skip hn (.data (hasKind_of (by decide)) (.data (hasKind_of (by decide)) .nil))) ?_
  refine Areas.cons (ds := [_, _]) (.skip hn (.data (hasKind_of (by decide)) (.data (hasKind_of (by decide)) .nil))) ?_
  exact Areas.cons (ds := [_]) (.skip hn (.data (hasKind_of (by decide)) .nil)) .nil

/-- the browse area comes last, and arrays are numbered through all files -/
example : ∃ p, openPds4 c!"/data/x" demoLabel = .ok p ∧
    p.index = [c!"The_header", c!"ARRAY_0", c!"T1", c!"TABLE_1", c!"ARRAY_1", c!"label"] ∧
    p.get c!"TABLE_1" = .ok (.structure ⟨c!"TABLE_1", .table, el c!"Table_Binary", c!"/data/x/t.csv"⟩) ∧
    p.get c!"ARRAY_1" = .ok (.structure ⟨c!"ARRAY_1", .array, el c!"Array_2D_Image", c!"/b.img"⟩) ∧
    p.get c!"T2" = .error .keyError := by
  refine ⟨_, rfl, by decide +kernel, by decide +kernel, by decide +kernel, by decide +kernel⟩

theorem no_file (dir : Str) {as : List Area} (h : ∃ a ∈ as, a.file = none) (n : Kind → Nat) : readAreas dir as n = .error .typeError := by
  induction as generalizing n with
  | nil =>
    obtain ⟨a, ha, _⟩ := h
    cases ha
  | cons b as ih =>
    unfold readAreas
    cases hb : b.file with
    | none => rfl
    | some f =>
      have : ∃ a ∈ as, a.file = none := by
        obtain ⟨a, ha, hf⟩ := h
        rcases List.mem_cons.1 ha with rfl | ha
        · rw [hb] at hf
          cases hf
        · exact ⟨a, ha, hf⟩
      simp only [ih this]

/-- **C77** (limit): if a file area of the label does not say the name of its file, the whole product cannot be opened -/
theorem C77_no_file_name (dir : Str) (label : List Area) (a : Area) (ha : a ∈ label) (hf : a.file = none)
    (ht : a.tag = c!"File_Area_Observational" ∨ a.tag = c!"File_Area_Observational_Supplemental" ∨ a.tag = c!"File_Area_Ancillary" ∨
      a.tag = c!"File_Area_Browse" ∨ a.tag = c!"File_Area_Inventory") : openPds4 dir label = .error .typeError := by
  unfold openPds4 readStructures
  rw [no_file]
  refine ⟨a, ?_, hf⟩
  rw [areasOf_eq]
  simp only [List.mem_append, List.mem_filter, ha, true_and, decide_eq_true_eq, or_assoc]
  exact ht

example : openPds4 c!"/data" (⟨c!"File_Area_Browse", none, []⟩ :: demoLabel) = .error .typeError :=
  C77_no_file_name _ _ ⟨c!"File_Area_Browse", none, []⟩ List.mem_cons_self rfl (by decide)

/-- **C77** (limit): structures with the same name (after the changes of spaces) are listed one by one under that name, but only
the last one can be had -/
theorem C77_same_name (dir : Str) (label : List Area) (before : List Described) (d : Described) (mid : List Described) (e : Described)
    (rest : List Described) (h : Describes label (before ++ d :: (mid ++ e :: rest)))
    (hs : nameOf before d = nameOf (before ++ d :: mid) e) (hl : nameOf before d ≠ c!"label")
    (hlast : ∀ mid' f last, rest = mid' ++ f :: last → nameOf (before ++ d :: mid ++ e :: mid') f ≠ nameOf before d) :
    ∃ p, openPds4 dir label = .ok p ∧ 2 ≤ p.index.count (nameOf before d) ∧
      ∃ s, p.get (nameOf before d) = .ok (.structure s) ∧ Found.Is dir e s := by
  obtain ⟨p, hp, hi, _, hg⟩ := C76_pds4_objects dir label _ h
  refine ⟨p, hp, ?_, ?_⟩
  · rw [hi]
    have e1 : namesOf (before ++ d :: (mid ++ e :: rest)) = (number dir (before ++ d :: (mid ++ e :: rest)) (tally [])).map (fun s => keyOf s.id) := by
      rw [← number_names dir]
      rfl
    have e2 := number_at dir before d (mid ++ e :: rest) []
    have e3 := number_at dir mid e rest ([] ++ before ++ [d])
    rw [e1, e2, e3]
    simp only [List.map_append, List.map_cons, keyOf_idOf, List.nil_append, List.count_append, List.count_cons, List.append_assoc,
      List.cons_append] at hs ⊢
    rw [hs]
    simp
    omega
  · have h2 := (hg (before ++ d :: mid) e rest (by simp)).1 (hs ▸ hl) (by
      intro mid' f last hr
      have := hlast mid' f last hr
      rw [← hs]
      simpa using this)
    rw [hs]
    exact h2

/-- a given identifier may be like a made-up one: the first array can no longer be had -/
example : ∃ p, openPds4 c!"/x" [⟨c!"File_Area_Observational", some c!"a", [el c!"Array", el c!"Header" (some c!"ARRAY 0")]⟩] = .ok p ∧
    p.index = [c!"ARRAY_0", c!"ARRAY_0", c!"label"] ∧
    p.get c!"ARRAY_0" = .ok (.structure ⟨c!"ARRAY 0", .header, el c!"Header" (some c!"ARRAY 0"), c!"/x/a"⟩) := by
  refine ⟨_, rfl, by decide +kernel, by decide +kernel⟩

/-- **C77** (limit): a structure with the name `label` cannot be had, by no name -/
theorem C77_named_label (dir : Str) (label : List Area) (p : Product4) (h : openPds4 dir label = .ok p) (name : Str) (s : Found)
    (hg : p.get name = .ok (.structure s)) : name ≠ c!"label" ∧ s.id ≠ c!"label" := by
  unfold openPds4 at h
  split at h
  · cases h
  rename_i found _
  cases h
  have hne : name ≠ c!"label" := by
    rintro rfl
    rw [get_label] at hg
    cases hg
  refine ⟨hne, ?_⟩
  unfold Product4.get at hg
  split at hg
  · rename_i x hx
    have h1 := List.find?_some hx
    have h2 := List.mem_of_find?_eq_some hx
    simp only [List.mem_reverse, List.mem_append, List.mem_map, List.mem_singleton] at h2
    rcases h2 with ⟨t, _, rfl⟩ | rfl
    · cases hg
      intro hc
      refine hne ?_
      have : keyOf s.id = name := by simpa using h1
      rw [← this, hc]
      rfl
    · cases hg
  · cases hg

example : ∃ p, openPds4 c!"/x" [⟨c!"File_Area_Observational", some c!"a", [el c!"Array" (some c!"label")]⟩] = .ok p ∧
    p.index = [c!"label", c!"label"] ∧ p.get c!"label" = .ok .label := by
  refine ⟨_, rfl, by decide +kernel, by decide +kernel⟩

end Verif.Objects
