/-
Lemmas on bit columns in binary tables.
-/
import Verif.Spec.BitTable
import Verif.Props.TableScale
import Verif.Props.Bits

namespace Verif.BitTable
open Verif.Py Verif.Format Verif.Datatypes Verif.Datatypes.Spec Verif.Bits Verif.Bits.Spec Verif.Table Verif.Table.Spec
open Verif.BitTable.Spec Verif.Float
open Verif.Scaling (Num)

/-- the last step for one column -/
def finishB (src : Source) (q : Str × BColumn × Option Num × Option Num) : Except PyErr (Str × BColumn) :=
  (scaleB src.R src.R' q.2.1 q.2.2.1 q.2.2.2).map (fun c => (q.1, c))

theorem expandBits_plain (a : Attrs) (c : Column) (h : a.bits = none) : expandBits a c = .ok (.plain c) := by
  unfold expandBits
  rw [h]

theorem scaleCol_none (R : Rounding double) (R' : Rounding single) (c : Column) : scaleCol R R' c none none = .ok c := rfl

theorem scaleB_none (R : Rounding double) (R' : Rounding single) (c : BColumn) : scaleB R R' c none none = .ok c := by
  cases c <;> rfl

theorem mapM_cons_ok {α β : Type} (f : α → Except PyErr β) (x : α) (xs : List α) (out : List β)
    (h : (x :: xs).mapM f = .ok out) : ∃ y ys, f x = .ok y ∧ xs.mapM f = .ok ys ∧ out = y :: ys := by
  rw [List.mapM_cons] at h
  cases hx : f x with
  | error e => rw [hx] at h; cases h
  | ok y =>
    cases hxs : xs.mapM f with
    | error e => rw [hx, hxs] at h; cases h
    | ok ys =>
      rw [hx, hxs] at h
      injection h with h
      exact ⟨y, ys, rfl, rfl, h.symm⟩

theorem mapM_cons_of {α β : Type} (f : α → Except PyErr β) (x : α) (xs : List α) (y : β) (ys : List β)
    (h : f x = .ok y) (h' : xs.mapM f = .ok ys) : (x :: xs).mapM f = .ok (y :: ys) := by
  rw [List.mapM_cons, h, h']
  rfl

theorem mapM_len {α β : Type} (f : α → Except PyErr β) (xs : List α) (ys : List β) (h : xs.mapM f = .ok ys) :
    ys.length = xs.length := by
  induction xs generalizing ys with
  | nil => injection h with h; rw [← h]; rfl
  | cons x xs ih =>
    obtain ⟨y, ys', _, h2, rfl⟩ := mapM_cons_ok f x xs ys h
    rw [List.length_cons, List.length_cons, ih _ h2]

theorem mapM_get {α β : Type} (f : α → Except PyErr β) (xs : List α) (ys : List β) (h : xs.mapM f = .ok ys) (k : Nat) (x : α)
    (hx : xs[k]? = some x) : ∃ y, ys[k]? = some y ∧ f x = .ok y := by
  induction xs generalizing ys k with
  | nil => cases hx
  | cons x' xs ih =>
    obtain ⟨y, ys', h1, h2, rfl⟩ := mapM_cons_ok f x' xs ys h
    cases k with
    | zero =>
      injection hx with hx
      exact ⟨y, rfl, by rw [← hx]; exact h1⟩
    | succ k => exact ih _ h2 k hx

/-- The table without bit columns gives the table with bit columns. -/
theorem finish_lift (src : Source) (p : Str → Bool) (cols : List TCol) : ∀ (columns : List Column)
    (scs ofs : List (Option Num)) (out : List (Str × Column)),
    columns.length = cols.length → scs.length = cols.length → ofs.length = cols.length →
    (((cols.map (fun c => c.fld.name)).zip (columns.zip (scs.zip ofs))).filter (fun q => p q.1)).mapM (finish src) = .ok out →
    (∀ c ∈ cols, c.fld.attrs.bits ≠ none → p c.fld.name = true) →
    List.Forall₂ (fun c q => c.fld.attrs.bits = none ∨ ∃ r, expandBits c.fld.attrs (Prod.snd q) = .ok r)
      (cols.filter (fun c => p c.fld.name)) out →
    List.Forall₂ (fun c (sc : Option Num) => c.fld.attrs.bits ≠ none → sc = none) cols scs →
    List.Forall₂ (fun c (sc : Option Num) => c.fld.attrs.bits ≠ none → sc = none) cols ofs →
    ∃ (exp : List BColumn) (zs : List (TCol × (Str × Column) × BColumn)),
      (cols.zip columns).mapM (fun p => expandBits p.1.fld.attrs p.2) = .ok exp ∧
      (((cols.map (fun c => c.fld.name)).zip (exp.zip (scs.zip ofs))).filter (fun q => p q.1)).mapM (finishB src) =
        .ok (zs.map (fun z => (z.2.1.1, z.2.2))) ∧
      zs.map (fun z => z.1) = cols.filter (fun c => p c.fld.name) ∧ zs.map (fun z => z.2.1) = out ∧
      ∀ z ∈ zs, expandBits z.1.fld.attrs z.2.1.2 = .ok z.2.2 := by
  induction cols with
  | nil =>
    intro columns scs ofs out h1 h2 h3 h4 _ _ _ _
    have hc := List.eq_nil_of_length_eq_zero h1
    subst hc
    simp only [List.map_nil, List.zip_nil_left, List.filter_nil, List.mapM_nil] at h4
    injection h4 with h4
    exact ⟨[], [], rfl, rfl, rfl, h4, by simp⟩
  | cons c cols ih =>
    intro columns scs ofs out h1 h2 h3 h4 hkeep hexp hsc hof
    cases columns with
    | nil => simp at h1
    | cons col columns =>
    cases scs with
    | nil => simp at h2
    | cons sc scs =>
    cases ofs with
    | nil => simp at h3
    | cons of ofs =>
      simp only [List.length_cons, Nat.add_right_cancel_iff] at h1 h2 h3
      have hsc1 := (List.forall₂_cons.1 hsc)
      have hof1 := (List.forall₂_cons.1 hof)
      simp only [List.map_cons, List.zip_cons_cons, List.filter_cons] at h4 ⊢
      rw [List.filter_cons] at hexp
      by_cases hp : p c.fld.name = true
      · rw [if_pos hp] at h4 hexp
        obtain ⟨y, ys, e1, e2, rfl⟩ := mapM_cons_ok _ _ _ _ h4
        rw [List.forall₂_cons] at hexp
        obtain ⟨exp, zs, g1, g2, g3, g4, g5⟩ := ih columns scs ofs ys h1 h2 h3 e2 (fun x hx => hkeep x (List.mem_cons_of_mem _ hx))
          hexp.2 hsc1.2 hof1.2
        -- this column
        have hthis : ∃ r r', expandBits c.fld.attrs col = .ok r ∧
            finishB src (c.fld.name, r, sc, of) = .ok (y.1, r') ∧ expandBits c.fld.attrs y.2 = .ok r' := by
          by_cases hb : c.fld.attrs.bits = none
          · refine ⟨_, .plain y.2, expandBits_plain _ _ hb, ?_, expandBits_plain _ _ hb⟩
            unfold finish at e1
            unfold finishB scaleB
            simp only at e1 ⊢
            cases hs : scaleCol src.R src.R' col sc of with
            | error e => rw [hs] at e1; cases e1
            | ok v => rw [hs] at e1; injection e1 with e1; rw [← e1]; rfl
          · have es := hsc1.1 hb
            have eo := hof1.1 hb
            subst es eo
            have ey : y = (c.fld.name, col) := by
              unfold finish at e1
              rw [scaleCol_none] at e1
              injection e1 with e1
              exact e1.symm
            subst ey
            obtain ⟨r, hr⟩ := hexp.1.resolve_left hb
            refine ⟨r, r, hr, ?_, hr⟩
            unfold finishB
            rw [scaleB_none]
            rfl
        obtain ⟨r, r', q1, q2, q3⟩ := hthis
        refine ⟨r :: exp, (c, y, r') :: zs, mapM_cons_of _ _ _ _ _ q1 g1, ?_, ?_, ?_, ?_⟩
        · simp only [List.zip_cons_cons, List.filter_cons, hp, if_true, List.map_cons]
          exact mapM_cons_of _ _ _ _ _ q2 g2
        · simp only [List.map_cons, g3, hp, if_true]
        · simp only [List.map_cons, g4]
        · intro z hz
          rcases List.mem_cons.1 hz with rfl | hz
          · exact q3
          · exact g5 z hz
      · rw [if_neg hp] at h4 hexp
        obtain ⟨exp, zs, g1, g2, g3, g4, g5⟩ := ih columns scs ofs out h1 h2 h3 h4 (fun x hx => hkeep x (List.mem_cons_of_mem _ hx))
          hexp hsc1.2 hof1.2
        have hb : c.fld.attrs.bits = none := by
          by_contra hb
          exact hp (hkeep c (List.mem_cons_self ..) hb)
        refine ⟨.plain col :: exp, zs, mapM_cons_of _ _ _ _ _ (expandBits_plain _ _ hb) g1, ?_, ?_, g4, g5⟩
        · simp only [List.zip_cons_cons, List.filter_cons, hp]
          exact g2
        · rw [g3, if_neg hp]

/-! ### the label -/

theorem ssiFix_declares (d : BitDef) (fs : List (Nat × Nat)) (h : Declares d fs) : ssiFix d = d := by
  cases h <;> rfl

/-- the definitions the fields are taken from -/
def fixed (ids : Ids) (d : BitDef) : BitDef := if !ids.iss && ids.ssi then ssiFix d else d

theorem fixed_map (ids : Ids) (ds : List BitDef) : (if !ids.iss && ids.ssi then ds.map ssiFix else ds) = ds.map (fixed ids) := by
  unfold fixed
  split
  · rfl
  · rw [List.map_id']

theorem fixed_name (ids : Ids) (d : BitDef) : (fixed ids d).name = d.name := by
  unfold fixed
  split
  · unfold ssiFix
    split <;> rfl
  · rfl

theorem declared_fixed (ids : Ids) (d : BitDef) (fs : List (Nat × Nat)) (h : Declared ids d fs) : Declares (fixed ids d) fs := by
  cases h with
  | plain h =>
    unfold fixed
    rw [ssiFix_declares d fs h, ite_self]
    exact h
  | ssi h1 h2 h3 =>
    unfold fixed
    rw [h1, h2]
    exact Declares.items h3
  | @ssiOne nm s n h1 h2 h3 =>
    unfold fixed
    rw [h1, h2]
    have := Declares.items (nm := nm) (bs := none) (s := s) (b := 1) (n := n) h3
    simp only [Nat.mul_one] at this
    exact this

theorem declared_all (ids : Ids) (ds : List BitDef) (fss : List (List (Nat × Nat))) (h : List.Forall₂ (Declared ids) ds fss) :
    List.Forall₂ Declares (ds.map (fixed ids)) fss := by
  induction h with
  | nil => exact .nil
  | cons h _ ih => exact .cons (declared_fixed ids _ _ h) ih

theorem setBitType_integer (ids : Ids) (t u : Str) (hi : ids.instrument ∉ msbInstruments) (h : IntegerName (underscored u)) :
    setBitType ids t (some u) = .ok (if determineByteOrder (underscored u) = .little then c!"LSB_BIT_STRING" else c!"MSB_BIT_STRING") := by
  have hs : sampleTypes u 1 true = .ok (integerCode (determineByteOrder (underscored u)) (!contains (underscored u) c!"UNSIGNED") 1 true) := by
    unfold sampleTypes
    rw [if_pos]
    have h' := h
    unfold IntegerName at h'
    rcases h' with ⟨h1 | h1, h2⟩
    · have e1 := (contains_iff (underscored u) c!"INTEGER").2 h1
      have e2 : contains (underscored u) c!"ASCII" = false := by
        by_contra hc
        exact h2 ((contains_iff _ _).1 (by simpa using hc))
      rw [e1, e2]; rfl
    · rw [h1]; decide
  unfold setBitType
  rw [if_neg hi]
  simp only [hs]
  unfold integerCode orderChar
  cases determineByteOrder (underscored u) with
  | big => simp
  | little => simp

theorem setBitType_bytes (ids : Ids) (t u : Str) (hi : ids.instrument ∉ msbInstruments) (h : underscored u ∈ byteTypes) :
    setBitType ids t (some u) = .ok t := by
  have hs : sampleTypes u 1 true = .ok ['S', '1'] ∨ sampleTypes u 1 true = .ok ['V', '1'] := by
    unfold sampleTypes
    generalize underscored u = v at h
    simp only [byteTypes, List.mem_cons, List.not_mem_nil, or_false] at h
    rcases h with rfl | rfl | rfl | rfl | rfl | rfl | rfl | rfl | rfl | rfl | rfl | rfl
    · exact Or.inl rfl
    · exact Or.inl rfl
    · exact Or.inl rfl
    · exact Or.inl rfl
    · exact Or.inl rfl
    · exact Or.inr rfl
    · exact Or.inr rfl
    · exact Or.inr rfl
    · exact Or.inr rfl
    · exact Or.inr rfl
    · exact Or.inr rfl
    · exact Or.inr rfl
  unfold setBitType
  rw [if_neg hi]
  rcases hs with hs | hs
  · simp only [hs]; rfl
  · simp only [hs]; rfl

theorem bitStartAndSize_declared (instrument : Str) (defs : List BitDef) (fss : List (List (Nat × Nat))) (hne : defs ≠ [])
    (hdecl : List.Forall₂ Declares defs fss)
    (hinst : ¬ instrument <:+: c!"JOVIAN INFRARED AURORAL MAPPER" ∨
      ∀ d, defs.getLast? = some d → d.name ≠ some c!"NADIR_OFFSET_SIGN") :
    bitStartAndSize instrument defs =
      .ok (fss.flatten.map (fun f => some (f.1 : Int)), fss.flatten.map (fun f => some (f.2 : Int))) := by
  unfold bitStartAndSize
  have hsp : ∀ st, specialStarts instrument defs st = st := by
    intro st
    unfold specialStarts
    split
    · rename_i hc
      rcases hinst with h | h
      · exact absurd ((contains_iff _ _).1 hc) h
      · cases hl : defs.getLast? with
        | none => rfl
        | some d =>
          simp only
          rw [if_neg (h d hl)]
    · rfl
  cases defs with
  | nil => exact absurd rfl hne
  | cons d ds =>
    simp only [bitFields_eq _ _ hdecl, hsp, List.map_map]
    rfl

theorem addBitInfo_reads (ids : Ids) (a a' : Attrs) (h : ReadAs ids a a') : addBitInfo ids a = .ok a' := by
  cases h with
  | plain h => unfold addBitInfo; rw [h]
  | @bits o t fss ho hne hdecl ht hinst =>
    have hfix := fixed_map ids o.defs
    have hbs := bitStartAndSize_declared ids.instrument (o.defs.map (fixed ids)) fss (by simpa using hne) (declared_all ids _ _ hdecl) (by
      rcases hinst with h | h
      · exact Or.inl h
      · right
        intro d hd
        rw [List.getLast?_map] at hd
        cases hl : o.defs.getLast? with
        | none => rw [hl] at hd; cases hd
        | some d' =>
          rw [hl] at hd
          injection hd with hd
          rw [← hd, fixed_name]
          exact h d' hl)
    have htype : (if contains (underscored (if ids.iss then c!"MSB_BIT_STRING" else a.dataType)) c!"BIT_STRING" then
        (Except.ok (underscored (if ids.iss then c!"MSB_BIT_STRING" else a.dataType)) : Except PyErr Str)
        else setBitType ids (underscored (if ids.iss then c!"MSB_BIT_STRING" else a.dataType)) o.bitType) = .ok t := by
      have hcon : ¬ c!"BIT_STRING" <:+: underscored a.dataType → ¬ contains (underscored a.dataType) c!"BIT_STRING" = true := by
        intro h1 h2
        exact h1 ((contains_iff _ _).1 h2)
      cases ht with
      | iss hi => rw [hi]; rfl
      | stated hi hc =>
        rw [hi]
        simp only [Bool.false_eq_true, if_false]
        rw [if_pos ((contains_iff _ _).2 hc)]
      | known hi hn hm =>
        rw [hi]
        simp only [Bool.false_eq_true, if_false]
        rw [if_neg (hcon hn)]
        unfold setBitType
        rw [if_pos hm]
      | @big u hi hn hm ho' hI hL =>
        rw [hi]
        simp only [Bool.false_eq_true, if_false]
        rw [if_neg (hcon hn), ho', setBitType_integer ids _ u hm hI, if_neg]
        rw [order_iff]; exact hL
      | @little u hi hn hm ho' hI hL =>
        rw [hi]
        simp only [Bool.false_eq_true, if_false]
        rw [if_neg (hcon hn), ho', setBitType_integer ids _ u hm hI, if_pos]
        rw [order_iff]; exact hL
      | @kept u hi hn hm ho' hk =>
        rw [hi]
        simp only [Bool.false_eq_true, if_false]
        rw [if_neg (hcon hn), ho', setBitType_bytes ids _ u hm hk]
    unfold addBitInfo
    rw [ho]
    simp only [hfix, htype, hbs]

theorem addBits_col (ids : Ids) (c c' : Format.Spec.Col) (h : ColReadAs ids c c') : addBits ids c.toDef = .ok c'.toDef := by
  obtain ⟨a, ha, rfl⟩ := h
  simp only [Format.Spec.Col.toDef, addBits, addBitInfo_reads ids _ _ ha]

theorem addBits_cols (ids : Ids) (cs cs' : List Format.Spec.Col) (h : List.Forall₂ (ColReadAs ids) cs cs') :
    addBitsAll ids (cs.map Format.Spec.Col.toDef) = .ok (cs'.map Format.Spec.Col.toDef) := by
  induction h with
  | nil => simp only [List.map_nil, addBitsAll]
  | cons h _ ih => simp only [List.map_cons, addBitsAll, addBits_col _ _ _ h, ih]

theorem addBits_entries (ids : Ids) (es es' : List Format.Spec.Entry) (h : List.Forall₂ (EntryReadAs ids) es es') :
    addBitsAll ids (es.map Format.Spec.Entry.toDef) = .ok (es'.map Format.Spec.Entry.toDef) := by
  induction h with
  | nil => simp only [List.map_nil, addBitsAll]
  | cons h _ ih =>
    have : ∀ e e', EntryReadAs ids e e' → addBits ids e.toDef = .ok e'.toDef := by
      intro e e' h
      cases h with
      | col h => exact addBits_col _ _ _ h
      | cont h => simp only [Format.Spec.Entry.toDef, addBits, addBits_cols _ _ _ h]
    simp only [List.map_cons, addBitsAll, this _ _ h, ih]

/-! ### the bits of a column -/

theorem expandBits_column (a : Attrs) (o : BitObj) (fss : List (List (Nat × Nat))) (vs : List Bytes) (n : Nat)
    (ho : a.bits = some ⟨o.defs, o.bitType, some (fss.flatten.map (fun f => some (f.1 : Int)), fss.flatten.map (fun f => some (f.2 : Int)))⟩)
    (ht : a.dataType ∈ [c!"MSB_BIT_STRING", c!"LSB_BIT_STRING"]) (hne : vs ≠ []) (hn : 0 < n) (hlen : ∀ v ∈ vs, v.length = n)
    (hfit : ∀ f ∈ fss.flatten, 1 ≤ f.1 ∧ f.1 - 1 + f.2 ≤ 8 * n) :
    expandBits a (.bytes vs) = .ok (.bits (vs.map (fun v => fss.flatten.map (fun f => field (bitsOf a.dataType v) f.1 f.2)))) := by
  have hconv : convertColumn (determineByteOrder a.dataType) vs = .ok (vs.map (bitsOf a.dataType)) := by
    simp only [List.mem_cons, List.not_mem_nil, or_false] at ht
    rcases ht with ht | ht
    · rw [ht]
      show convertColumn .big vs = _
      rw [C08_big_endian_bits vs n hne hn hlen]
      rfl
    · rw [ht]
      show convertColumn .little vs = _
      rw [C08_little_endian_bits vs n hne hn hlen]
      congr 1
      apply List.map_congr_left
      intro v hv
      rw [← hlen v hv]
      rfl
  have hbl : ∀ v ∈ vs, (bitsOf a.dataType v).length = 8 * n := by
    intro v hv
    unfold Spec.bitsOf
    split
    · rw [bytesBits_length, swapWords_length _ _ (by rw [wordWidths_sum]), wordWidths_sum, hlen v hv]
    · rw [bytesBits_length, hlen v hv]
  unfold expandBits
  rw [ho]
  simp only [hconv]
  unfold spliceColumn
  have hz : zeroIndex (fss.flatten.map (fun f => some (f.1 : Int))) = .ok (fss.flatten.map (fun f => (f.1 : Int) - 1)) := by
    generalize fss.flatten = fs
    induction fs with
    | nil => rfl
    | cons f fs ih => simp only [List.map_cons, zeroIndex, ih]
  have ha : allSome (fss.flatten.map (fun f => some (f.2 : Int))) = .ok (fss.flatten.map (fun f => (f.2 : Int))) := by
    generalize fss.flatten = fs
    induction fs with
    | nil => rfl
    | cons f fs ih => simp only [List.map_cons, allSome, ih]
  simp only [hz, ha, List.map_map]
  congr 2
  apply List.map_congr_left
  intro v hv
  exact splitBits_fields _ _ (fun f hf => by rw [hbl v hv]; exact hfit f hf)

end Verif.BitTable
