/-
C92, C93 at work.
-/
import Verif.Props.Xml

namespace Verif.Xml
open Verif.Py Verif.Pvl Verif.Xml.Spec

/-- no text is a float here -/
def noFloats : Floats Unit where
  parse _ := none
  isZero _ := false

/-- a small label: `<Product xmlns="...pds/v1" xmlns:d="...disp/v1"><d:Axis> X  1\n</d:Axis><id unit="s">5</id><d:Axis/><note>a\nb</note></Product>` -/
def demo : Doc :=
  .mk [(c!"", pds), (c!"d", c!"http://pds.nasa.gov/pds4/disp/v1")] (some pds) c!"Product" [] (some c!"\n  ") [
    .mk [] (some c!"http://pds.nasa.gov/pds4/disp/v1") c!"Axis" [] (some c!" X  1\n") [],
    .mk [] (some pds) c!"id" [(c!"unit", c!"s")] (some c!"5") [],
    .mk [] (some c!"http://pds.nasa.gov/pds4/disp/v1") c!"Axis" [] none [],
    .mk [] (some pds) c!"note" [] (some c!"a\nb") []]

def demoMeta : MDict (Option (Scalar Unit)) :=
  [(c!"Product", .node [(c!"disp:Axis", .leaf (some (.text c!"X 1"))), (c!"disp:Axis", .leaf none),
    (c!"id", .leaf (some (.text c!"5"))), (c!"note", .leaf (some (.text c!"a\nb")))])]

/-- the hypotheses hold -/
theorem demo_proper : Proper (declarations demo) demo where
  decl := by
    intro e he
    simp only [demo, declarations, declarationsL, List.append_nil, List.mem_cons, List.not_mem_nil, or_false] at he
    rcases he with rfl | rfl
    · exact ⟨⟨by decide, by decide⟩, ⟨by decide, by decide⟩⟩
    · exact ⟨⟨by decide, by decide⟩, ⟨by decide, by decide⟩⟩
  element := by
    intro e he
    have hblank : ¬ ∃ t, some c!"\n  " = some t ∧ ¬ Blank t := by
      rintro ⟨t, ht, hb⟩
      cases ht
      exact hb (by unfold Blank; decide)
    simp only [demo, elements, elementsL, List.append_nil, List.cons_append, List.nil_append, List.mem_cons, List.not_mem_nil, or_false] at he
    rcases he with rfl | rfl | rfl | rfl | rfl
    · refine ⟨⟨by decide, by decide⟩, by decide, ?_, fun h => absurd h hblank⟩
      intro u hu; cases hu; simp [demo, declarations, declarationsL]
    all_goals
      refine ⟨⟨by decide, by decide⟩, by decide, ?_, ?_⟩
      · intro u hu; cases hu; simp [demo, declarations, declarationsL]
      · intro _ k hk; simp at hk

example : ∃ v, metadata noFloats (declarations demo) (etree demo) = [(docName (declarations demo) demo, v)] ∧
    Shows (declarations demo) demo v := C92_label noFloats demo demo_proper

theorem demo_dict : labelDict noFloats true false [] (declarations demo) (etree demo) =
    (c!"Product", .map [(c!"disp:Axis", .list [.leaf (some (.text c!"X 1")), .leaf none]), (c!"id", .leaf (some (.text c!"5"))),
      (c!"note", .leaf (some (.text c!"a\nb")))]) := rfl

/-- as computed: names with the usual prefix, equal names together, texts of one line tidied -/
example : metadata noFloats (declarations demo) (etree demo) = demoMeta := by
  unfold metadata reformatLabel
  rw [demo_dict]
  apply C07_unpack_unique
  refine Pvl.Spec.Unpacks.map (Pvl.Spec.Unpacks.list (xs := [.leaf (some (Scalar.text c!"X 1")), .leaf none])
    (sub := [(c!"disp:Axis", .leaf (some (Scalar.text c!"X 1"))), (c!"disp:Axis", .leaf none)]) ?_ (.leaf (.leaf .nil))) .nil
  exact .leaf (.leaf .nil)

/-- the attribute `unit` is not shown -/
example : metadata noFloats (declarations demo) (etree (withAttributes (fun a => a.map (fun x => (x.1, c!"m"))) demo)) =
    metadata noFloats (declarations demo) (etree demo) :=
  C93_attributes noFloats _ demo _ (by intro a; simp)

/-- children A, B, A -/
example : byName [(c!"A", 1), (c!"B", 2), (c!"A", 3)] ≠ [(c!"A", 1), (c!"B", 2), (c!"A", 3)] :=
  C93_interleaved _ 0 1 2 _ _ _ (by decide) (by decide) rfl rfl rfl rfl (by decide)

example : byName [(c!"A", 1), (c!"B", 2), (c!"A", 3)] = [(c!"A", 1), (c!"A", 3), (c!"B", 2)] := by decide

/-- `<offset unit="K">0</offset>` -/
example : xmlToDict noFloats ⟨false, true, [], []⟩ (.mk c!"offset" [(c!"unit", c!"K")] (some c!"0") []) =
    xmlToDict noFloats ⟨false, true, [], []⟩ (.mk c!"offset" [(c!"unit", c!"K")] none []) :=
  C93_zero noFloats _ _ _ _ _ rfl (by decide) (Or.inr ⟨by simp, rfl⟩) (Or.inl (by decide))

/-- a table with two fields: `<Table><name>T</name><records>007</records><Field/><Field/></Table>` -/
def table : Element := .mk c!"Table" [] none [.mk c!"name" [] (some c!"007") [], .mk c!"records" [] (some c!"007") [],
  .mk c!"Field" [] none [], .mk c!"Field" [] none []]

example : loadKeys noFloats table = .ok [(c!"name", .leaf (some (.text c!"007"))), (c!"records", .leaf (some (.int 7))),
    (c!"Field", .list [.leaf none, .leaf none])] := rfl

example : loadKeys noFloats table ≠ .error .attributeError := by
  obtain ⟨d, h, -⟩ := C92_structure noFloats c!"Table" [] none [.mk c!"name" [] (some c!"007") [], .mk c!"records" [] (some c!"007") [],
    .mk c!"Field" [] none [], .mk c!"Field" [] none []] (by simp) (by intro t h; cases h)
  unfold table
  rw [h]
  intro h'
  cases h'

/-- two namespaces with the prefix `x` -/
example : shownName [(c!"x", c!"u:1"), (c!"x", c!"u:2")] (some c!"u:1") c!"a" = shownName [(c!"x", c!"u:1"), (c!"x", c!"u:2")] (some c!"u:2") c!"a" :=
  (C93_prefixes _ _ _ _ (by decide) (by decide)).1 (by decide)

example : tidy c!"  two   words \n\n" = c!"two words" := by decide
example : tidy c!"  two \n   lines" = c!"  two \n   lines" := by decide

end Verif.Xml
