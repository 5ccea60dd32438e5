/-
A label file that meets the hypotheses of the theorems in Props/Label.
-/
import Verif.Props.Label

namespace Verif.Label
open Verif.Py Verif.Pvl Verif.Pvl.Spec Verif.Literal Verif.Label.Spec

/-- the text of the label -/
def exText : Str := c!"ROWS = 15 /* n */\nOBJECT = IMAGE\n KIND = {MARS}\nEND_OBJECT = IMAGE\nEND\r"

/-- what it says -/
def exTree : MDict Str := [(c!"ROWS", .leaf c!"15"), (c!"IMAGE", .node [(c!"KIND", .leaf c!"{MARS}")])]

theorem trimmed_of (l : Str) (h : (l.head?.all (fun c => !isSpace c) && l.getLast?.all (fun c => !isSpace c) && l.all (· ≠ '\n')) = true) : Trimmed l := by
  simp only [Bool.and_eq_true, Option.all_eq_true, Bool.not_eq_eq_eq_not, Bool.not_true] at h
  refine ⟨h.1.1, h.1.2, ?_⟩
  have := h.2
  intro hm
  rw [List.all_eq_true] at this
  have := this _ hm
  simp at this

theorem blank_of (s : Str) (h : s.all isSpace = true) : Blank s := fun c hc => List.all_eq_true.1 h c hc

theorem upper_of (s : Str) (h : (s.take 8).all (fun c => !(decide ('a'.toNat ≤ c.toNat) && decide (c.toNat ≤ 'z'.toNat))) = true) : UpperHead s := by
  intro c hc
  have := List.all_eq_true.1 h c hc
  simp only [Bool.not_eq_eq_eq_not, Bool.not_true, Bool.and_eq_false_iff, decide_eq_false_iff_not] at this
  tauto

theorem not_end_object (s : Str) (h : startsWith s c!"END_OBJECT" = false) : ¬ ∃ r, s = c!"END_OBJECT" ++ r := by
  intro hr
  rw [(startsWith_iff _ _).2 hr] at h
  cases h

theorem exSays : Says exText exTree := by
  refine ⟨[c!"ROWS = 15 ", c!"OBJECT = IMAGE", c!" KIND = {MARS}", c!"END_OBJECT = IMAGE", c!"END\r"],
    [c!"ROWS = 15", c!"OBJECT = IMAGE", c!"KIND = {MARS}", c!"END_OBJECT = IMAGE", c!"END"],
    [(c!"ROWS", c!"15"), (c!"OBJECT", c!"IMAGE"), (c!"KIND", c!"{MARS}"), (c!"END_OBJECT", []), (c!"END", [])], ?_, ?_, ?_, ?_⟩
  · exact .comment (a := c!"ROWS = 15 ") (body := c!" n */") (e := '\n') (noComment _ (by decide)) (by decide) (by decide) (noComment _ (by decide)) (Or.inl rfl)
      (.none (noComment _ (by decide)))
  · refine .line (w₁ := []) (l := c!"ROWS = 15") (w₂ := c!" ") (blank_of _ rfl) (by decide) (blank_of _ rfl) (by decide) (trimmed_of _ rfl) (by decide) ?_
    refine .line (w₁ := []) (l := c!"OBJECT = IMAGE") (w₂ := []) (blank_of _ rfl) (by decide) (blank_of _ rfl) (by decide) (trimmed_of _ rfl) (by decide) ?_
    refine .line (w₁ := c!" ") (l := c!"KIND = {MARS}") (w₂ := []) (blank_of _ rfl) (by decide) (blank_of _ rfl) (by decide) (trimmed_of _ rfl) (by decide) ?_
    refine .line (w₁ := []) (l := c!"END_OBJECT = IMAGE") (w₂ := []) (blank_of _ rfl) (by decide) (blank_of _ rfl) (by decide) (trimmed_of _ rfl) (by decide) ?_
    exact .line (w₁ := []) (l := c!"END") (w₂ := c!"\r") (blank_of _ rfl) (by decide) (blank_of _ rfl) (by decide) (trimmed_of _ rfl) (by decide) .nil
  · have assign : ∀ key head : Str, Trimmed key → key ≠ [] → '=' ∉ key → Trimmed head → '=' ∉ head → head ≠ [] → UpperHead (key ++ [' '] ++ c!"=" ++ [' '] ++ head) →
        startsWith (key ++ [' '] ++ c!"=" ++ [' '] ++ head) c!"END_OBJECT" = false → Layout [key ++ [' '] ++ c!"=" ++ [' '] ++ head] (key, head ++ join c!" " []) :=
      fun key head h1 h2 h3 h4 h5 h6 h7 h8 => .assign h1 h2 h3 h4 h5 (blank_of [' '] rfl) (by decide) (blank_of [' '] rfl) (by decide)
        (fun h => absurd h h6) h7 (not_end_object _ h8) (by simp)
    refine .cons (ls := [_]) (assign c!"ROWS" c!"15" (trimmed_of _ rfl) (by decide) (by decide) (trimmed_of _ rfl) (by decide) (by decide) (upper_of _ rfl) rfl) ?_
    refine .cons (ls := [_]) (assign c!"OBJECT" c!"IMAGE" (trimmed_of _ rfl) (by decide) (by decide) (trimmed_of _ rfl) (by decide) (by decide) (upper_of _ rfl) rfl) ?_
    refine .cons (ls := [_]) (assign c!"KIND" c!"{MARS}" (trimmed_of _ rfl) (by decide) (by decide) (trimmed_of _ rfl) (by decide) (by decide) (upper_of _ rfl) rfl) ?_
    refine .cons (ls := [_]) (.endObject (rest := c!" = IMAGE") (trimmed_of _ rfl) (fun _ => upper_of _ rfl) (by simp)) ?_
    exact .cons (ls := [_]) (rest := []) (.fin (by simp)) .nil
  · have plain : ∀ k : Str, k ∉ openers → startsWith k c!"END" = false → Plain k := by
      intro k h1 h2
      refine ⟨h1, fun h => ?_⟩
      rw [(startsWith_closer k).2 h] at h2
      cases h2
    refine Or.inr ⟨[(c!"ROWS", c!"15"), (c!"OBJECT", c!"IMAGE"), (c!"KIND", c!"{MARS}"), (c!"END_OBJECT", [])], [], rfl, ?_⟩
    refine .leaf (plain _ (by decide) rfl) ?_
    exact .block (o := c!"OBJECT") (c := c!"END_OBJECT") (body := [(c!"KIND", c!"{MARS}")]) (ss := []) (by decide) ⟨c!"_OBJECT", rfl⟩ (by decide)
      (.leaf (plain _ (by decide) rfl) .nil) .nil

/-- what the values mean -/
def exValue (s : Str) : Val := if s = c!"15" then .int 15 else .set [.str c!"MARS"]

theorem exMeans : ∀ s ∈ leaves exTree, Means s (exValue s) := by
  intro s hs
  have : s = c!"15" ∨ s = c!"{MARS}" := by simpa [exTree, leaves, leavesT] using hs
  rcases this with rfl | rfl
  · exact .value (.literal (.scalar (Or.inl (.int Value.exWhole))) (Or.inr (by decide)))
  · exact .words (o := '{') (c := '}') (parts := [c!"MARS"]) (ws := [c!"MARS"]) (Or.inr ⟨rfl, rfl⟩)
      (.cons ⟨[], [], rfl, by unfold Value.Spec.Spaces; simp, by unfold Value.Spec.Spaces; simp⟩ .nil) (by simp)
      (by intro w hw; simp at hw; subst hw; exact .word Value.exWord)

theorem exPart (data : Bytes) (hd : data.length ≤ 51000) : LabelPart (utf8 exText ++ data) 1024000 (utf8 exText) := by
  have hlen : (utf8 exText).length = 71 := by decide +kernel
  have hw : Trim.Spec.window (utf8 exText ++ data) 0 = (utf8 exText).drop 20 ++ data := by
    unfold Trim.Spec.window
    rw [Nat.mul_zero, Nat.add_zero, List.drop_append_of_le_length (by omega)]
    apply List.take_of_length_le
    simp [hlen]; omega
  have hend : Trim.Spec.WindowEnd (Trim.Spec.window (utf8 exText ++ data) 0) 51 := by
    rw [hw]
    refine .inl ?_
    have : Trim.searchEnd Trim.matchPvl ((utf8 exText).drop 20 ++ data) = some 51 := by
      have e : (utf8 exText).drop 20 = [74, 69, 67, 84, 32, 61, 32, 73, 77, 65, 71, 69, 10, 32, 75, 73, 78, 68, 32, 61, 32, 123, 77, 65, 82, 83, 125, 10, 69, 78, 68, 95,
        79, 66, 74, 69, 67, 84, 32, 61, 32, 73, 77, 65, 71, 69, 10, 69, 78, 68, 13] := by decide +kernel
      rw [e]
      rfl
    exact (Trim.searchEnd_spec Trim.matchPvl_spec _).1 _ this
  have := LabelPart.ended (f := utf8 exText ++ data) (m := 1024000) (i := 0) (e := 51) (by simp) (by decide) hend
  rwa [show 20 + 51200 * 0 + 51 = (utf8 exText).length by rw [hlen], List.take_left] at this

theorem exHead (data : Bytes) : ∀ b ∈ (utf8 exText ++ data).take 20, b < 128 := by
  have hlen : (utf8 exText).length = 71 := by decide +kernel
  rw [List.take_append_of_le_length (by omega)]
  decide +kernel

/-- A file with this label and anything after it. -/
example (gb : Bool → Bytes → Option Str) (data : Bytes) (hd : data.length ≤ 51000) :
    readPvl gb c!"/data/m.img" (utf8 exText ++ data) true 1024000 true =
      .ok ([(c!"ROWS", .leaf (.int 15)), (c!"IMAGE", .node [(c!"KIND", .leaf (.set [.str c!"MARS"]))])], [c!"ROWS", c!"KIND", c!"IMAGE"]) := by
  have hno : ∀ l : List Str, l.any (contains c!"/data/m.img") = false → ¬ ∃ x ∈ l, x <:+: c!"/data/m.img" := by
    intro l h hx
    rw [(any_contains _ l).2 hx] at h
    cases h
  rw [C98_label_file gb _ _ true 1024000 true exText (fun h => hno _ (by decide) h.1)
    (fun h => hno [c!".TAB"] (by decide) ⟨_, by simp, h.1⟩) (exHead data) (exPart data hd)]
  rw [C98_label_text exText exTree exValue true exSays exMeans]
  · rfl
  · intro _ r
    have : (keys exTree).count ('^' :: r) = 0 := by
      rw [List.count_eq_zero]
      simp [exTree, keys, keysT]
    exact Or.inl (by omega)

/-- labels of plain assignments -/
def assigns (kvs : List (Str × Str)) : Str := join c!"\n" (kvs.map (fun kv => kv.1 ++ [' '] ++ c!"=" ++ [' '] ++ kv.2))

/-- a plain assignment, as a check -/
def okAssign (kv : Str × Str) : Bool :=
  let tr := fun l : Str => l.head?.all (fun c => !isSpace c) && l.getLast?.all (fun c => !isSpace c) && l.all (· ≠ '\n')
  let l := kv.1 ++ [' '] ++ c!"=" ++ [' '] ++ kv.2
  tr kv.1 && tr kv.2 && tr l && !kv.1.isEmpty && !kv.2.isEmpty && !kv.1.contains '=' && !kv.2.contains '=' &&
    (l.take 8).all (fun c => !(decide ('a'.toNat ≤ c.toNat) && decide (c.toNat ≤ 'z'.toNat))) && !startsWith l c!"END_OBJECT" &&
    !openers.contains kv.1 && !startsWith kv.1 c!"END"

theorem assigns_says (kvs : List (Str × Str)) (h : kvs.all okAssign = true) (hc : contains (assigns kvs) c!"/*" = false) :
    Says (assigns kvs) (kvs.map (fun kv => (kv.1, .leaf kv.2))) := by
  refine ⟨kvs.map (fun kv => kv.1 ++ [' '] ++ c!"=" ++ [' '] ++ kv.2), kvs.map (fun kv => kv.1 ++ [' '] ++ c!"=" ++ [' '] ++ kv.2), kvs, .none (noComment _ hc), ?_⟩
  clear hc
  induction kvs with
  | nil => exact ⟨.nil, .nil, Or.inl .nil⟩
  | cons kv kvs ih =>
    rw [List.all_cons, Bool.and_eq_true] at h
    obtain ⟨h1, h2, h3⟩ := ih h.2
    have ho := h.1
    unfold okAssign at ho
    simp only [Bool.and_eq_true] at ho
    obtain ⟨⟨⟨⟨⟨⟨⟨⟨⟨⟨o1, o2⟩, o3⟩, o4⟩, o5⟩, o6⟩, o7⟩, o8⟩, o9⟩, o10⟩, o11⟩ := ho
    have t1 := trimmed_of kv.1 (by simpa only [Bool.and_eq_true] using o1)
    have t2 := trimmed_of kv.2 (by simpa only [Bool.and_eq_true] using o2)
    have t3 := trimmed_of (kv.1 ++ [' '] ++ c!"=" ++ [' '] ++ kv.2) (by simpa only [Bool.and_eq_true] using o3)
    have hw : Written (kvs.map (fun kv => (kv.1, Tree.leaf kv.2))) kvs := by
      rcases h3 with h3 | ⟨ss', x, hs, _⟩
      · exact h3
      · exfalso
        have := List.all_eq_true.1 h.2 (c!"END", x) (by rw [hs]; simp)
        unfold okAssign at this
        simp only [Bool.and_eq_true] at this
        exact absurd this.2 (by decide)
    refine ⟨?_, ?_, Or.inl ?_⟩
    · have := Physical.line (w₁ := []) (w₂ := []) (l := kv.1 ++ [' '] ++ c!"=" ++ [' '] ++ kv.2) (blank_of _ rfl) (by decide) (blank_of _ rfl) (by decide) t3 (by simp) h1
      simpa using this
    · have hl := Layout.assign (key := kv.1) (head := kv.2) (w₁ := [' ']) (w₂ := [' ']) (conts := []) t1 (by simpa using o4) (by simpa using o6) t2 (by simpa using o7)
        (blank_of _ rfl) (by decide) (blank_of _ rfl) (by decide) (fun hh => absurd hh (by simpa using o5)) (upper_of _ o8) (not_end_object _ (by simpa using o9)) (by simp)
      have := Layouts.cons hl h2
      simpa [join] using this
    · refine .leaf ⟨by simpa using o10, fun hh => ?_⟩ hw
      rw [(startsWith_closer _).2 hh] at o11
      cases o11

/-- `A = {{15}}` makes a label unreadable. -/
example : ∃ e, parsePvl c!"B = 1\nA = {{15}}" false = .error e :=
  C99_one_bad_value _ _ (assigns_says [(c!"B", c!"1"), (c!"A", c!"{{15}}")] (by decide) (by decide)) c!"{{15}}" (by simp [leaves, leavesT]) .typeError Value.exSetInSet

/-- Two pointers of the same name are numbered. -/
example : ∃ m params, parsePvl c!"^A = 15\n^A = 15" true = .ok (m, params) ∧ keys m = [c!"^A_0", c!"^A_1"] := by
  have hk : ∀ x, IsTarget [c!"^A", c!"^A"] x ↔ x = c!"^A" ∨ x = c!"A" := by
    intro x
    constructor
    · rintro ⟨r, hr, -, hx⟩
      have : r = c!"A" := by simpa using hr
      subst this
      have e : targets c!"^A" = [c!"^A", c!"A"] := by decide
      rw [e] at hx; simpa using hx
    · intro h
      refine ⟨c!"A", by simp, by decide, ?_⟩
      have e : targets c!"^A" = [c!"^A", c!"A"] := by decide
      rw [e]; simpa using h
  obtain ⟨m, params, h1, h2, -⟩ := C98_duplicate_pointers _ _ (fun _ => .int 15) (assigns_says [(c!"^A", c!"15"), (c!"^A", c!"15")] (by decide) (by decide))
    (by
      intro s hs
      have : s = c!"15" := by simpa [leaves, leavesT] using hs
      subst this
      exact .value (.literal (.scalar (Or.inl (.int Value.exWhole))) (Or.inr (by decide))))
    (by
      show NoClash [c!"^A", c!"^A"]
      refine ⟨?_, by simp⟩
      intro x y hx _ i h
      have hm : '_' ∈ x := by rw [h]; simp
      rcases (hk x).1 hx with rfl | rfl <;> revert hm <;> decide)
    (by
      show EnoughPointers [c!"^A", c!"^A"]
      intro r hr _ _
      have : r = c!"A" := by simpa using hr
      subst this
      decide)
    [c!"^A", c!"A"] (by intro x; show x ∈ _ ↔ IsTarget [c!"^A", c!"^A"] x; rw [hk x]; simp)
  exact ⟨m, params, h1, by rw [h2]; decide⟩

/-- Two bytes that are not UTF-8 are replaced. -/
example : decodeUtf8 false [65, 0xE2, 0x82, 66] = some ['A', Char.ofNat 0xFFFD, 'B'] ∧ decodeUtf8 true [65, 0xE2, 0x82, 66] = none := by
  constructor <;> simp [decodeUtf8, decodeStep, leadByte, continuation]

example : utf8 [Char.ofNat 0x20AC] = [0xE2, 0x82, 0xAC] := by decide +kernel

end Verif.Label
