/-
The byte offsets of a table do not depend on the names of its columns.
-/
import Verif.Props.Offsets

namespace Verif.Format
open Verif.Py Verif.Format.Spec

/-- a field without its name -/
def Fld.erase (f : Fld) : Fld := { f with name := [] }
/-- a row without its name -/
def Row.erase (r : Row) : Row := ⟨r.fld.erase, r.sb⟩

theorem erase_block (r : Row) : r.erase.fld.blockName = r.fld.blockName := rfl

theorem shiftBlock_erase (bn : Str) (f : Nat → Int) (rows : List Row) (k : Nat) :
    shiftBlock bn f (rows.map Row.erase) k = (shiftBlock bn f rows k).map Row.erase := by
  induction rows generalizing k with
  | nil => rfl
  | cons r rs ih =>
    simp only [List.map_cons, shiftBlock]
    by_cases hb : r.fld.blockName = some bn
    · rw [if_pos hb, if_pos (show r.erase.fld.blockName = some bn from hb), List.map_cons, ih]; rfl
    · rw [if_neg hb, if_neg (show ¬ r.erase.fld.blockName = some bn from hb), List.map_cons, ih]

theorem shiftBlock_names (bn : Str) (f : Nat → Int) (rows : List Row) (k : Nat) :
    (shiftBlock bn f rows k).map (·.fld.name) = rows.map (·.fld.name) := by
  induction rows generalizing k with
  | nil => rfl
  | cons r rs ih =>
    simp only [shiftBlock]
    split <;> simp [ih]

theorem scaleReps_names (bn : Str) (m : Nat) (rows : List Row) :
    (scaleReps bn m rows).map (·.fld.name) = rows.map (·.fld.name) := by
  unfold scaleReps
  rw [List.map_map]
  apply List.map_congr_left
  intro r _
  simp only [Function.comp_apply]
  split <;> rfl

theorem priorRow_erase (bn : Str) (hbn : contains bn c!"PLACEHOLDER" = false) (rows : List Row) :
    priorRow bn (rows.map Row.erase) = (priorRow bn rows).map Row.erase := by
  unfold priorRow
  simp only [hbn, Bool.false_eq_true, if_false]
  rw [List.findIdx?_map]
  have : ((fun r : Row => decide (r.fld.blockName = some bn)) ∘ Row.erase) = fun r : Row => decide (r.fld.blockName = some bn) := rfl
  rw [this]
  cases rows.findIdx? (fun r => decide (r.fld.blockName = some bn)) with
  | none => rfl
  | some i =>
    cases i with
    | zero => rfl
    | succ i =>
      simp only [List.getElem?_map]
      cases rows[i]? <;> rfl

theorem offsetBlock_erase (p : Option Int) (bn : Str) (hbn : contains bn c!"PLACEHOLDER" = false) (rows : List Row) :
    offsetBlock p bn (rows.map Row.erase) = (offsetBlock p bn rows).map (List.map Row.erase) := by
  unfold offsetBlock
  rw [priorRow_erase bn hbn]
  cases priorRow bn rows with
  | error e => rfl
  | ok prior =>
    simp only [Except.map]
    rw [List.find?_map, List.countP_map]
    have : ((fun r : Row => decide (r.fld.blockName = some bn)) ∘ Row.erase) = fun r : Row => decide (r.fld.blockName = some bn) := rfl
    rw [this]
    cases rows.find? (fun r => decide (r.fld.blockName = some bn)) with
    | none => rfl
    | some first =>
      simp only [Option.map_some, hbn, Bool.false_eq_true, and_false, if_false, not_false_eq_true, and_true, shiftBlock_erase]
      have e1 : prior.erase.fld.blockReps = prior.fld.blockReps := rfl
      have e2 : first.erase.fld.blockReps = first.fld.blockReps := rfl
      have e3 : first.erase.fld.blockBytes = first.fld.blockBytes := rfl
      have e4 : prior.erase.sb = prior.sb := rfl
      have e5 : prior.erase.fld.bytes = prior.fld.bytes := rfl
      rw [e1, e2, e3, e4, e5]
      generalize (if 1 < prior.fld.blockReps then first.fld.blockReps * prior.fld.blockReps else first.fld.blockReps) = count
      by_cases h1 : count = 1
      · rw [if_pos h1, if_pos h1]
      · rw [if_neg h1, if_neg h1]
        by_cases h0 : count = 0
        · rw [if_pos h0, if_pos h0]
        · rw [if_neg h0, if_neg h0]
          cases first.fld.blockBytes with
          | none => rfl
          | some size => simp only [shiftBlock_erase]

theorem offsetBlock_names (p : Option Int) (bn : Str) (rows out : List Row) (h : offsetBlock p bn rows = .ok out) :
    out.map (·.fld.name) = rows.map (·.fld.name) := by
  unfold offsetBlock at h
  split at h
  · cases h
  · split at h
    · cases h
    · simp only at h
      have hs : ∀ (c : Prop) [Decidable c] (m : Nat) (l : List Row),
          (if c then scaleReps bn m l else l).map (·.fld.name) = l.map (·.fld.name) := by
        intro c _ m l
        split
        · exact scaleReps_names _ _ _
        · rfl
      rename_i prior _ _ first _
      generalize (if 1 < prior.fld.blockReps ∧ ¬contains bn c!"PLACEHOLDER" = true then
        first.fld.blockReps * prior.fld.blockReps else first.fld.blockReps) = count at h
      by_cases h1 : count = 1
      · rw [if_pos h1] at h
        cases h
        rw [hs, shiftBlock_names]
      · rw [if_neg h1] at h
        by_cases h0 : count = 0
        · rw [if_pos h0] at h; cases h
        · rw [if_neg h0] at h
          cases hbb : first.fld.blockBytes with
          | none => rw [hbb] at h; cases h
          | some size =>
            rw [hbb] at h
            cases h
            rw [shiftBlock_names, hs, shiftBlock_names]

theorem offsetBlocks_erase (p : Option Int) (first : Option Str) (bns : List (Option Str))
    (hb : ∀ b, some b ∈ bns → contains b c!"PLACEHOLDER" = false) (rows : List Row) :
    offsetBlocks p first bns (rows.map Row.erase) = (offsetBlocks p first bns rows).map (List.map Row.erase) := by
  induction bns generalizing rows with
  | nil => rfl
  | cons x xs ih =>
    cases x with
    | none => rfl
    | some b =>
      have ih' := ih (fun b' h' => hb b' (List.mem_cons_of_mem _ h'))
      simp only [offsetBlocks]
      split
      · exact ih' rows
      · rw [offsetBlock_erase p b (hb b (by simp))]
        cases offsetBlock p b rows with
        | error e => rfl
        | ok out => exact ih' out

theorem offsetBlocks_names (p : Option Int) (first : Option Str) (bns : List (Option Str)) (rows out : List Row)
    (h : offsetBlocks p first bns rows = .ok out) : out.map (·.fld.name) = rows.map (·.fld.name) := by
  induction bns generalizing rows with
  | nil => cases h; rfl
  | cons x xs ih =>
    cases x with
    | none => cases h
    | some b =>
      simp only [offsetBlocks] at h
      split at h
      · exact ih rows h
      · split at h
        · cases h
        · rename_i rows' hr
          rw [ih _ h, offsetBlock_names p b _ _ hr]

theorem assignItems_erase (rows : List Row) (offs : List Int) :
    assignItems (rows.map Row.erase) offs = (assignItems rows offs).map Row.erase := by
  induction rows generalizing offs with
  | nil => rfl
  | cons r rs ih =>
    have e : itemSize r.erase.fld = itemSize r.fld := rfl
    simp only [List.map_cons, assignItems, e]
    split
    · cases offs with
      | nil => simp only [List.map_cons, ih]
      | cons o os => simp only [List.map_cons, ih]; rfl
    · simp only [List.map_cons, ih]

theorem assignItems_names (rows : List Row) (offs : List Int) :
    (assignItems rows offs).map (·.fld.name) = rows.map (·.fld.name) := by
  induction rows generalizing offs with
  | nil => rfl
  | cons r rs ih =>
    simp only [assignItems]
    split
    · cases offs <;> simp [ih]
    · simp [ih]

theorem applyItems_erase (rows : List Row) :
    applyItems (rows.map Row.erase) = (applyItems rows).map (List.map Row.erase) := by
  unfold applyItems
  have hany : ∀ P : Row → Bool, (∀ r, P r.erase = P r) → (rows.map Row.erase).any P = rows.any P := by
    intro P hP
    rw [List.any_map]
    congr 1
    funext r
    exact hP r
  rw [hany _ (fun _ => rfl), hany _ (fun _ => rfl), List.filter_map]
  have e2 : ((fun r : Row => (itemSize r.fld).isSome) ∘ Row.erase) = fun r : Row => (itemSize r.fld).isSome := rfl
  rw [e2]
  split
  · split
    · rfl
    · simp only [List.map_map, List.filterMap_map, Except.map]
      have e4 : ((fun x : Row => x.sb) ∘ Row.erase) = fun x : Row => x.sb := rfl
      have e5 : ((fun r : Row => itemSize r.fld) ∘ Row.erase) = fun r : Row => itemSize r.fld := rfl
      rw [e4, e5, assignItems_erase]
  · rfl

theorem applyItems_names (rows out : List Row) (h : applyItems rows = .ok out) :
    out.map (·.fld.name) = rows.map (·.fld.name) := by
  unfold applyItems at h
  split at h
  · split at h
    · cases h
    · cases h; exact assignItems_names _ _
  · cases h; rfl

/-- no field is the filler, and the blocks of the table are not placeholders -/
def Plain (fields : List Fld) : Prop :=
  ∀ f ∈ fields, f.name ≠ c!"PLACEHOLDER_0" ∧ ∀ b, f.blockName = some b → contains b c!"PLACEHOLDER" = false

/-- the places are the same for fields that differ in their names only -/
theorem preRows_rename (fields fields' : List Fld) (p : Option Int) (hp : Plain fields)
    (hp' : ∀ f ∈ fields', f.name ≠ c!"PLACEHOLDER_0") (he : fields'.map Fld.erase = fields.map Fld.erase) (rows : List Row)
    (h : preRows fields p = .ok rows) :
    ∃ rows', preRows fields' p = .ok rows' ∧ rows'.map Row.erase = rows.map Row.erase ∧
      rows'.map (·.fld.name) = fields'.map (·.name) := by
  have hi : ∀ fs : List Fld, (initialRows fs p).map Row.erase = initialRows (fs.map Fld.erase) p := by
    intro fs
    unfold initialRows
    rw [List.map_map, List.map_map]
    rfl
  have hb : ∀ fs : List Fld, (∀ f ∈ fs, f.name ≠ c!"PLACEHOLDER_0") →
      blockNames (initialRows fs p) = uniq ((fs.map Fld.erase).map (·.blockName)) := by
    intro fs hfs
    unfold blockNames initialRows
    rw [List.filter_eq_self.2 (by
      intro r hr
      obtain ⟨f, hf, rfl⟩ := List.mem_map.1 hr
      simpa using hfs f hf)]
    rw [List.map_map, List.map_map]
    rfl
  have huniq : ∀ (l : List (Option Str)) x, x ∈ uniq l → x ∈ l := by
    intro l x
    induction l with
    | nil => exact id
    | cons y ys ih =>
      intro hx
      simp only [uniq, List.mem_cons, List.mem_filter] at hx
      rcases hx with rfl | hx
      · simp
      · exact List.mem_cons_of_mem _ (ih hx.1)
  unfold preRows at h ⊢
  simp only at h ⊢
  rw [hb fields' hp', he]
  rw [hb fields (fun f hf => (hp f hf).1)] at h
  have hin : (initialRows fields' p).map Row.erase = (initialRows fields p).map Row.erase := by
    rw [hi, hi, he]
  have hnm : (initialRows fields' p).map (·.fld.name) = fields'.map (·.name) := by
    unfold initialRows
    rw [List.map_map]
    rfl
  have hmem : ∀ b, some b ∈ uniq ((fields.map Fld.erase).map (·.blockName)) → contains b c!"PLACEHOLDER" = false := by
    intro b hbm
    have := huniq _ _ hbm
    rw [List.map_map] at this
    obtain ⟨f, hf, hfb⟩ := List.mem_map.1 this
    exact (hp f hf).2 b hfb
  generalize uniq ((fields.map Fld.erase).map (·.blockName)) = bns at h hmem ⊢
  generalize initialRows fields' p = I' at *
  generalize initialRows fields p = I at *
  -- the last step
  have last : ∀ (B B' : List Row), B'.map Row.erase = B.map Row.erase → B'.map (·.fld.name) = fields'.map (·.name) →
      applyItems B = .ok rows → ∃ rows', applyItems B' = .ok rows' ∧ rows'.map Row.erase = rows.map Row.erase ∧
      rows'.map (·.fld.name) = fields'.map (·.name) := by
    intro B B' h1 h2 h3
    have h4 := applyItems_erase B
    rw [h3, ← h1, applyItems_erase B'] at h4
    cases hB' : applyItems B' with
    | error e => rw [hB'] at h4; cases h4
    | ok out =>
      rw [hB'] at h4
      refine ⟨out, rfl, Except.ok.inj h4, ?_⟩
      rw [applyItems_names _ _ hB', h2]
  cases bns with
  | nil => exact last I I' hin hnm h
  | cons b bs =>
    simp only at h ⊢
    have h5 := offsetBlocks_erase p b bs (fun x hx => hmem x (List.mem_cons_of_mem _ hx)) I
    rw [← hin, offsetBlocks_erase p b bs (fun x hx => hmem x (List.mem_cons_of_mem _ hx)) I'] at h5
    cases hB : offsetBlocks p b bs I with
    | error e => rw [hB] at h; cases h
    | ok B =>
      cases hB' : offsetBlocks p b bs I' with
      | error e => rw [hB, hB'] at h5; cases h5
      | ok B' =>
        rw [hB, hB'] at h5
        rw [hB] at h
        exact last B B' (Except.ok.inj h5) (by rw [offsetBlocks_names _ _ _ _ _ hB', hnm]) h

end Verif.Format
