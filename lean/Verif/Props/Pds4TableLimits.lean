/-
C73: limits of PDS4 tables with records of fixed length.
-/
import Verif.Props.Pds4Table

namespace Verif.Pds4Table
open Verif.Py Verif.Bits Verif.Datatypes Verif.Image Verif.Table Verif.Table.Spec Verif.ImageFile Verif.ImageFile.Spec
  Verif.Pds4Array.Spec Verif.Literal.Spec Verif.Pds4Table.Spec

theorem mapM_fails {α β : Type} (f : α → Except PyErr β) (e : PyErr) (l : List α) (h : ∀ a ∈ l, (∃ b, f a = .ok b) ∨ f a = .error e)
    (hx : ∃ a ∈ l, f a = .error e) : l.mapM f = .error e := by
  induction l with
  | nil => obtain ⟨a, ha, -⟩ := hx; cases ha
  | cons a l ih =>
    rcases h a (by simp) with ⟨b, hb⟩ | hb
    · obtain ⟨a', ha', he⟩ := hx
      rcases List.mem_cons.1 ha' with rfl | ha'
      · rw [hb] at he; cases he
      · rw [List.mapM_cons, hb, ih (fun a ha => h a (by simp [ha])) ⟨a', ha', he⟩]
        rfl
    · rw [List.mapM_cons, hb]
      rfl

/-- **C73**: A table with a field in three or more groups, one in the other, cannot be read, whatever its values are. -/
theorem C73_three_groups (E : Env) (l : Label) (file : Bytes) (h : Placed E l file) (hn : NamedTable l)
    (hd : ∃ p ∈ leaves [] l.body, 3 ≤ p.2.length) : readTable E l file = .error .notImplemented := by
  obtain ⟨hnames, hnodup⟩ := fieldNames_eq l hn
  obtain ⟨cs, hcs, hF⟩ := mapM_rel
    (fun p => readField E l (tableBytes file l.offset l.records l.recordLength) p.1 p.2)
    (fun p c => c.shape = reps p.2) (leaves [] l.body) (by
      intro p hp
      obtain ⟨cells, h1, -⟩ := readField_ok E l file h p hp
      exact ⟨_, h1, rfl⟩)
  have hv : validate (manifest 0 l.body) = .ok () := by
    have := validate_ok 0 l.body (fun g hg => ⟨(h.divides g hg).1, (h.divides g hg).2.1⟩) []
    rw [List.append_nil] at this
    rw [this]
    rfl
  have hto : ∀ (x : Str) (c : Column), (3 ≤ c.shape.length → toColumns l.records x c = .error .notImplemented) ∧
      (c.shape.length < 3 → ∃ b, toColumns l.records x c = .ok b) := by
    rintro x ⟨shape, cells⟩
    rcases shape with _ | ⟨a, _ | ⟨b, _ | ⟨c, d⟩⟩⟩
    · exact ⟨fun hc => by simp at hc, fun _ => ⟨_, rfl⟩⟩
    · exact ⟨fun hc => by simp at hc, fun _ => ⟨_, rfl⟩⟩
    · exact ⟨fun hc => by simp at hc, fun _ => ⟨_, rfl⟩⟩
    · exact ⟨fun _ => rfl, fun hc => by simp at hc; omega⟩
  have hm : ((fieldNames l).zip (l.uniform.map (fun u => (⟨[], u.values⟩ : Column)) ++ cs)).mapM
      (fun p => toColumns l.records p.1 p.2) = .error .notImplemented := by
    refine mapM_fails _ _ _ ?_ ?_
    · rintro ⟨x, c⟩ -
      by_cases h3 : 3 ≤ c.shape.length
      · exact .inr ((hto x c).1 h3)
      · exact .inl ((hto x c).2 (by omega))
    · obtain ⟨p, hp, h3⟩ := hd
      obtain ⟨i, hi, rfl⟩ := List.getElem_of_mem hp
      have hl1 := List.Forall₂.length_eq hF
      have hl2 := List.Forall₂.length_eq (rel_path l.body 0 [])
      refine ⟨((rel 0 l.body)[i]'(by omega), cs[i]'(by omega)), ?_, ?_⟩
      · rw [hnames, List.zip_append (by simp)]
        refine List.mem_append.2 (.inr ?_)
        rw [← List.getElem_zip (h := by simp only [List.length_zip]; omega)]
        exact List.getElem_mem _
      · refine (hto _ _).1 ?_
        have := (List.forall₂_iff_get.1 hF).2 i hi (by omega)
        simp only [List.get_eq_getElem] at this
        rw [this]
        simpa [reps] using h3
  unfold readTable
  simp only
  rw [hv]
  simp only
  rw [fields_eq, hcs]
  simp only [frame]
  rw [if_neg (fun c => c hnodup), hm]

theorem validate_fails (l : Nat) (F : Forest) (rest : List Entry) (h : ∃ g ∈ groups F, g.repetitions = 0 ∨ ¬ g.repetitions ∣ g.length) :
    ∃ e, validate (manifest l F ++ rest) = .error e := by
  by_cases hok : ∀ g ∈ groups F, 1 ≤ g.repetitions ∧ g.repetitions ∣ g.length
  · obtain ⟨g, hg, hb⟩ := h
    have := hok g hg
    rcases hb with hb | hb
    · omega
    · exact absurd this.2 hb
  clear hok
  induction F generalizing l rest with
  | nil => obtain ⟨g, hg, -⟩ := h; cases hg
  | field f F ih => exact ih l rest h
  | group g inner F ih1 ih2 =>
    simp only [manifest, List.cons_append, validate]
    by_cases h0 : g.repetitions = 0
    · exact ⟨_, if_pos h0⟩
    rw [if_neg h0]
    by_cases h1 : g.length % g.repetitions ≠ 0
    · exact ⟨_, if_pos h1⟩
    rw [if_neg h1, List.append_assoc]
    by_cases hi : ∀ g ∈ groups inner, 1 ≤ g.repetitions ∧ g.repetitions ∣ g.length
    · rw [validate_ok _ _ hi]
      refine ih2 l rest ?_
      obtain ⟨g', hg', hb⟩ := h
      simp only [groups, List.cons_append, List.mem_cons, List.mem_append] at hg'
      rcases hg' with rfl | hg' | hg'
      · rcases hb with hb | hb
        · exact absurd hb h0
        · exact absurd (Nat.dvd_of_mod_eq_zero (by simpa using h1)) hb
      · have := hi g' hg'
        rcases hb with hb | hb
        · omega
        · exact absurd this.2 hb
      · exact ⟨g', hg', hb⟩
    · refine ih1 (l + 1) _ ?_
      push Not at hi
      obtain ⟨g', hg', hb⟩ := hi
      refine ⟨g', hg', ?_⟩
      by_cases hz : g'.repetitions = 0
      · exact .inl hz
      · exact .inr (hb (by omega))

/-- **C73**: If the repetitions of a group do not divide its length, or there are none, the table cannot be read. -/
theorem C73_repetitions (E : Env) (l : Label) (file : Bytes)
    (h : ∃ g ∈ groups l.body, g.repetitions = 0 ∨ ¬ g.repetitions ∣ g.length) : ∃ e, readTable E l file = .error e := by
  obtain ⟨e, he⟩ := validate_fails 0 l.body [] h
  rw [List.append_nil] at he
  refine ⟨e, ?_⟩
  unfold readTable
  simp only
  rw [he]

/-- **C73**: Fields of the same name in different groups without names get columns of the same names. -/
theorem C73_duplicates (E : Env) (l : Label) (file : Bytes) (h : Readable E l file) (hn : NamedTable l) (i j : Nat)
    (p q : Field × List Group) (hij : i ≠ j) (hi : (leaves [] l.body)[i]? = some p) (hj : (leaves [] l.body)[j]? = some q)
    (hpq : p.1.name = q.1.name) (hp : p.2 ≠ [] ∧ ∀ g ∈ p.2, g.name = none) (hq : q.2 ≠ [] ∧ ∀ g ∈ q.2, g.name = none) :
    ∃ out, readTable E l file = .ok out ∧ ¬ (out.map (·.1)).Nodup := by
  obtain ⟨blocks, h1, h2⟩ := C72_table E l file h hn
  refine ⟨_, h1, ?_⟩
  intro hnd
  rw [List.map_append] at hnd
  have hnd := hnd.of_append_right
  rw [List.map_flatten, List.nodup_flatten] at hnd
  have hpw := hnd.2
  have hfst : ∀ (k : Nat) (p : Field × List Group), (leaves [] l.body)[k]? = some p → p.2 ≠ [] → (∀ g ∈ p.2, g.name = none) →
      ∃ b, (blocks.map (List.map (·.1)))[k]? = some b ∧ (p.1.name ++ c!"_" ++ natStr 0) ∈ b := by
    intro k p hk hne hnone
    rw [List.getElem?_eq_some_iff] at hk
    obtain ⟨hlt, rfl⟩ := hk
    have hl := List.Forall₂.length_eq h2
    have hlt' : k < blocks.length := by omega
    have hB := (List.forall₂_iff_get.1 h2).2 k hlt hlt'
    simp only [List.get_eq_getElem] at hB
    refine ⟨blocks[k].map (·.1), by rw [List.getElem?_map, List.getElem?_eq_getElem hlt']; rfl, ?_⟩
    have hmem : (leaves [] l.body)[k] ∈ leaves [] l.body := List.getElem_mem hlt
    generalize (leaves [] l.body)[k] = p at *
    have hrep : ∀ gs : List Group, (∀ g ∈ gs, 1 ≤ g.repetitions) → Within (reps gs) (List.replicate gs.length 0) := by
      intro gs
      induction gs with
      | nil => intro _; exact .nil
      | cons g gs ih => intro hg; exact .cons (hg g (by simp)) (ih (fun g hg' => hg g (by simp [hg'])))
    have hw := hrep p.2 (leaf_groups h.toPlaced hmem)
    obtain ⟨col, hc, -⟩ := hB.2 _ hw
    have h0 : lastFastest (reps p.2) (List.replicate p.2.length 0) = 0 := by
      rw [← ravel_last _ _ (by simp [reps])]
      clear hw hc hne hnone hB hmem
      induction p.2 with
      | nil => rfl
      | cons g gs ih =>
        simp only [reps, List.map_cons, List.length_cons, List.replicate_succ, ravel, Nat.zero_mul, Nat.zero_add]
        exact ih
    have hlab : columnLabel p (List.replicate p.2.length 0) = p.1.name ++ c!"_" ++ natStr 0 := by
      unfold columnLabel
      have hdw : p.2.dropWhile (fun g => g.name.isNone) = [] := by
        clear hw hc hne hB hmem h0
        revert hnone
        induction p.2 with
        | nil => intro _; rfl
        | cons g gs ih =>
          intro hnone
          rw [List.dropWhile_cons_of_pos (by simp [hnone g (by simp)])]
          exact ih (fun g hg => hnone g (by simp [hg]))
      rw [if_neg hne, h0, hdw]
      rfl
    rw [hlab] at hc
    exact List.mem_map.2 ⟨_, List.mem_of_getElem? hc, rfl⟩
  obtain ⟨b1, hb1, hm1⟩ := hfst i p hi hp.1 hp.2
  obtain ⟨b2, hb2, hm2⟩ := hfst j q hj hq.1 hq.2
  rw [← hpq] at hm2
  rw [List.getElem?_eq_some_iff] at hb1 hb2
  obtain ⟨hl1, rfl⟩ := hb1
  obtain ⟨hl2, rfl⟩ := hb2
  rw [List.pairwise_iff_getElem] at hpw
  rcases Nat.lt_or_gt_of_ne hij with hlt | hlt
  · exact hpw i j hl1 hl2 hlt hm1 hm2
  · exact hpw j i hl2 hl1 hlt hm2 hm1

/-! ### a file with the first record only -/

theorem leaves_flat (F : Forest) (gs : List Group) (h : groups F = []) : ∀ p ∈ leaves gs F, p.2 = gs := by
  induction F with
  | nil => intro p hp; cases hp
  | field f F ih =>
    intro p hp
    simp only [leaves, List.mem_cons] at hp
    rcases hp with rfl | hp
    · rfl
    · exact ih h p hp
  | group g inner F => simp [groups] at h

/-- **C73**: A binary table without groups of which the file has only the first record is read without an error: all
records have the values of the first. -/
theorem C73_first_record (E : Env) (l : Label) (file : Bytes) (hb : l.binary = true) (hn : NamedTable l) (hg : groups l.body = [])
    (hr : 2 ≤ l.records) (hfile : file.length = l.offset + l.recordLength)
    (hin : ∀ p ∈ leaves [] l.body, 1 ≤ p.1.location ∧ p.1.location - 1 + p.1.length ≤ l.recordLength)
    (hty : ∀ p ∈ leaves [] l.body, ∃ d v, Pds4Type p.1.dataType d ∧ Stored d (bytesAt file (l.offset + (p.1.location - 1)) p.1.length) v) :
    ∃ cols, readTable E l file = .ok (l.uniform.map (fun u => (u.name, u.values)) ++ cols) ∧
      List.Forall₂ (fun p col => col.1 = p.1.name ∧ ∃ c, col.2 = List.replicate l.records c ∧
        ∀ d v, Pds4Type p.1.dataType d → Stored d (bytesAt file (l.offset + (p.1.location - 1)) p.1.length) v → Spec.Is c v)
        (leaves [] l.body) cols := by
  have hleaf := leaves_named l.body [] hn.body (by simp)
  have hflat := leaves_flat l.body [] hg
  obtain ⟨blocks, h1, h2⟩ := assemble E l file hn (by rw [hg]; simp)
    (fun p c => c.shape = [] ∧ ∃ x, c.values = List.replicate l.records x ∧
      ∀ d v, Pds4Type p.1.dataType d → Stored d (bytesAt file (l.offset + (p.1.location - 1)) p.1.length) v → Spec.Is x v)
    (fun p b => ∃ col, b = [col] ∧ col.1 = p.1.name ∧ ∃ c, col.2 = List.replicate l.records c ∧
        ∀ d v, Pds4Type p.1.dataType d → Stored d (bytesAt file (l.offset + (p.1.location - 1)) p.1.length) v → Spec.Is c v)
    (by
      intro p hp
      obtain ⟨f, gs⟩ := p
      have hgs : gs = [] := hflat _ hp
      subst hgs
      obtain ⟨d, v, ht, hs⟩ := hty _ hp
      obtain ⟨d', hk, h0, hd⟩ := kind_number ht
      have hsize : d'.size = d.size := by
        rcases hd with rfl | ⟨o, o', k, -, rfl, rfl⟩ <;> rfl
      have hlen := stored_length hs
      have hcells : extractField (tableBytes file l.offset l.records l.recordLength) l.recordLength l.records f [] =
          bytesAt file (l.offset + (f.location - 1)) f.length :: List.replicate (l.records - 1) [] := by
        have hpos : 0 < l.offset + l.records * l.recordLength := by
          have h3 : f.location - 1 + f.length ≤ l.recordLength := (hin _ hp).2
          have h4 : 0 < f.length := by
            by_contra hc
            have hz : f.length = 0 := by omega
            rw [hz] at hlen
            simp [bytesAt] at hlen
            omega
          have : 1 * 1 ≤ l.records * l.recordLength := Nat.mul_le_mul (by omega) (by omega)
          omega
        have hdata : tableBytes file l.offset l.records l.recordLength = file.drop l.offset := by
          unfold tableBytes
          rw [if_pos hpos, List.take_of_length_le]
          rw [List.length_drop, hfile]
          have : 1 * l.recordLength ≤ l.records * l.recordLength := Nat.mul_le_mul_right _ (by omega)
          omega
        unfold extractField extract
        rw [if_pos (show List.map (fun x : Group => x.repetitions) [] = [] from rfl), hdata]
        obtain ⟨n, hn⟩ : ∃ n, l.records = n + 1 := ⟨l.records - 1, by omega⟩
        rw [hn, List.range_succ_eq_map, List.map_cons, List.map_map]
        congr 1
        · unfold slice bytesAt
          rw [List.drop_drop, Nat.zero_mul, Nat.zero_add]
        · rw [Nat.add_sub_cancel]
          rw [List.eq_replicate_iff]
          refine ⟨by simp, ?_⟩
          intro b hb
          obtain ⟨r, -, rfl⟩ := List.mem_map.1 hb
          simp only [Function.comp, slice]
          rw [List.drop_eq_nil_of_le, List.take_nil]
          rw [List.length_drop, hfile]
          have : 1 * l.recordLength ≤ (r + 1) * l.recordLength := Nat.mul_le_mul_right _ (by omega)
          have : r.succ * l.recordLength = (r + 1) * l.recordLength := rfl
          omega
      have hfl : (extractField (tableBytes file l.offset l.records l.recordLength) l.recordLength l.records f []).flatten =
          [bytesAt file (l.offset + (f.location - 1)) f.length].flatten := by
        rw [hcells, List.flatten_cons]
        simp
      refine ⟨⟨[], List.replicate l.records (.elem (elemOf (oneVal d' (bytesAt file (l.offset + (f.location - 1)) f.length))))⟩, ?_, rfl, _, rfl, ?_⟩
      · simp only [readField, convert]
        rw [hb, hk]
        simp only
        rw [hfl, fromBuffer_eq d' h0 _ (by simp only [List.mem_singleton]; rintro b rfl; rw [hlen, hsize])]
        simp only [Except.map, List.map_cons, List.map_nil, place]
        rw [if_neg (by simp), if_neg (by simp; omega)]
      · intro e w ht' hs'
        obtain ⟨e', hk', h0', he⟩ := kind_number ht'
        rw [hk] at hk'
        cases hk'
        refine .elem (is_elemOf ?_)
        rcases he with rfl | ⟨o, o', k, hkk, rfl, rfl⟩
        · exact hs'
        · exact Pds4Array.stored_byte hkk hs')
    (by
      rintro ⟨f, gs⟩ hp x ⟨shape, values⟩ hx ⟨hshape, y, hval, hy⟩
      have hgs : gs = [] := hflat _ hp
      subst hgs
      have hxf : x = f.name := hx
      subst hxf
      simp only at hshape hval
      subst hshape
      refine ⟨_, rfl, _, rfl, columnName_plain _ (hleaf _ hp).1, y, hval, hy⟩)
  refine ⟨blocks.flatten, h1, ?_⟩
  generalize leaves [] l.body = ps at h2
  clear h1
  induction h2 with
  | nil => exact .nil
  | cons hb _ ih =>
    obtain ⟨col, rfl, hc⟩ := hb
    exact .cons hc ih

/-! ### the least integer -/

theorem typeFor_least (M : Int) (h1 : -(2 ^ 31) < M) (h2 : M < 2 ^ 31) :
    ∃ u : NumPy.IntType, u ∈ NumPy.IntType.all ∧ u.bits ≤ 32 ∧
      Pds4Scale.typeFor (some (intType ⟨none, .int, 8⟩)) (-9223372036854775808) M = some u := by
  have hw1 : NumPy.wrap (intType ⟨none, .int, 8⟩) ((-9223372036854775808 : Int).natAbs) = -9223372036854775808 := by decide +kernel
  have hw2 : NumPy.wrap (intType ⟨none, .int, 8⟩) (M.natAbs) = M.natAbs := by
    refine NumPy.wrap_id _ (by decide) _ ?_ ?_
    · have : NumPy.lo (intType ⟨none, .int, 8⟩) = -9223372036854775808 := by decide +kernel
      rw [this]
      omega
    · have : NumPy.hi (intType ⟨none, .int, 8⟩) = 9223372036854775807 := by decide +kernel
      rw [this]
      omega
  have hMa : (M.natAbs : Int) ≤ 2147483647 := by omega
  have hmaxe : max (-9223372036854775808 : Int) M.natAbs = M.natAbs := by omega
  have hneg : ¬ (0 : Int) ≤ -9223372036854775808 := by omega
  unfold Pds4Scale.typeFor
  simp only [hw1, hw2, hmaxe, hneg, if_false]
  by_cases h1 : (M.natAbs : Int) ≤ 127
  · rw [if_pos h1]
    exact ⟨NumPy.int8, by decide, by decide, rfl⟩
  rw [if_neg h1]
  by_cases h2 : (M.natAbs : Int) ≤ 255
  · rw [if_pos h2]
    exact ⟨NumPy.int16, by decide, by decide, rfl⟩
  rw [if_neg h2]
  by_cases h3 : (M.natAbs : Int) ≤ 32767
  · rw [if_pos h3]
    exact ⟨NumPy.int16, by decide, by decide, rfl⟩
  rw [if_neg h3]
  by_cases h4 : (M.natAbs : Int) ≤ 65535
  · rw [if_pos h4]
    exact ⟨NumPy.int32, by decide, by decide, rfl⟩
  rw [if_neg h4, if_pos hMa]
  exact ⟨NumPy.int32, by decide, by decide, rfl⟩

theorem wrap_zero (u : NumPy.IntType) (hu : u ∈ NumPy.IntType.all) (hbits : u.bits ≤ 32) : NumPy.wrap u (-9223372036854775808) = 0 := by
  simp only [NumPy.IntType.all, List.mem_cons, List.not_mem_nil, or_false] at hu
  rcases hu with rfl | rfl | rfl | rfl | rfl | rfl | rfl | rfl
  all_goals first | (exact absurd hbits (by decide)) | decide +kernel

theorem toLeast_of (t : NumPy.DType) (ns : List Int) (u : NumPy.IntType) (h : Pds4Scale.minIntType t ns = .ok (some u)) :
    toLeast t ns = .ok (ns.map (NumPy.wrap u)) := by
  unfold toLeast
  rw [h]

theorem least_type (ns : List Int) (hb : ∀ y ∈ ns, -9223372036854775808 ≤ y ∧ y < 2 ^ 31) (hmax : ∃ y ∈ ns, -(2 ^ 31) < y)
    (h0 : -9223372036854775808 ∈ ns) :
    ∃ u : NumPy.IntType, u ∈ NumPy.IntType.all ∧ u.bits ≤ 32 ∧
      toLeast (some (intType ⟨none, .int, 8⟩)) ns = .ok (ns.map (NumPy.wrap u)) := by
  cases ns with
  | nil => cases h0
  | cons x xs =>
    have hmin : Pds4Scale.minOf x xs = -9223372036854775808 := by
      have h1 := Pds4Scale.minOf_le x xs _ h0
      have h2 := (hb _ (Pds4Scale.minOf_mem x xs)).1
      exact Int.le_antisymm h1 h2
    obtain ⟨y, hy, hx1⟩ := hmax
    have hM1 := Pds4Scale.maxOf_ge x xs _ hy
    have hM2 := (hb _ (Pds4Scale.maxOf_mem x xs)).2
    obtain ⟨u, hu, hbits, hty⟩ := typeFor_least (Pds4Scale.maxOf x xs) (by omega) hM2
    rw [← hmin] at hty
    exact ⟨u, hu, hbits, toLeast_of _ _ u ((Pds4Scale.minIntType_cons _ x xs).trans (congrArg Except.ok hty))⟩

/-- **C73**: In a field of ASCII_Integer, a value of -2^63 is shown as 0 if no value is greater than 2^31 - 1 and one of
them is at least -(2^31 - 1). -/
theorem C73_least (E : Env) (l : Label) (file : Bytes) (f : Field) (hbody : l.body = .field f .nil) (hn : NamedTable l)
    (ht : f.dataType = c!"ASCII_Integer") (hin : f.location - 1 + f.length ≤ l.recordLength)
    (n : Nat → Int) (hs : ∀ r < l.records, ∃ s, Padded (bytesAt file (l.offset + r * l.recordLength + (f.location - 1)) f.length) s ∧
      SignedNumeral 10 s (n r)) (hlo : ∀ r < l.records, -9223372036854775808 ≤ n r ∧ n r < 2 ^ 31)
    (hmax : ∃ r < l.records, -(2 ^ 31) < n r) (r0 : Nat) (hr0 : r0 < l.records) (h0 : n r0 = -9223372036854775808) :
    ∃ cells, readTable E l file = .ok (l.uniform.map (fun u => (u.name, u.values)) ++ [(f.name, cells)]) ∧
      cells[r0]? = some (.elem (.int 0)) := by
  have hex : extractField (tableBytes file l.offset l.records l.recordLength) l.recordLength l.records f [] =
      (List.range l.records).map (fun r => bytesAt file (l.offset + r * l.recordLength + (f.location - 1)) f.length) := by
    unfold extractField extract
    rw [if_pos (show List.map (fun x : Group => x.repetitions) [] = [] from rfl)]
    refine List.map_congr_left (fun r hr => ?_)
    have := slice_table l file (f.location - 1) r f.length (List.mem_range.1 hr) hin
    rw [Nat.mul_comm l.recordLength r] at this
    exact this
  have hints : ((List.range l.records).map (fun r => bytesAt file (l.offset + r * l.recordLength + (f.location - 1)) f.length)).mapM (toInt 10) =
      .ok ((List.range l.records).map n) := by
    rw [List.mapM_map]
    refine Scaling.mapM_ok _ n _ ?_
    intro r hr
    obtain ⟨s, h1, h2⟩ := hs r (List.mem_range.1 hr)
    exact toInt_ok h1 h2 (by decide) (by decide)
  have hrange : ((List.range l.records).map n).mapM (intoType (intType ⟨none, .int, 8⟩)) = .ok ((List.range l.records).map n) := by
    rw [Scaling.mapM_ok _ id, List.map_id]
    intro x hx
    obtain ⟨r, hr, rfl⟩ := List.mem_map.1 hx
    have := hlo r (List.mem_range.1 hr)
    have e1 : NumPy.hi (intType ⟨none, .int, 8⟩) = 9223372036854775807 := by decide +kernel
    have e2 : NumPy.lo (intType ⟨none, .int, 8⟩) = -9223372036854775808 := by decide +kernel
    rw [intoType, if_pos (by rw [e1, e2]; omega)]
    rfl
  have hmem : ∀ r < l.records, n r ∈ (List.range l.records).map n := fun r hr => List.mem_map.2 ⟨r, List.mem_range.2 hr, rfl⟩
  have hleast : ∃ u : NumPy.IntType, u ∈ NumPy.IntType.all ∧ u.bits ≤ 32 ∧ toLeast (some (intType ⟨none, .int, 8⟩)) ((List.range l.records).map n) =
      .ok (((List.range l.records).map n).map (NumPy.wrap u)) := by
    refine least_type _ ?_ ?_ ?_
    · intro y hy
      obtain ⟨r, hr, rfl⟩ := List.mem_map.1 hy
      exact hlo r (List.mem_range.1 hr)
    · obtain ⟨r1, hr1, hx1⟩ := hmax
      exact ⟨_, hmem r1 hr1, hx1⟩
    · rw [← h0]
      exact hmem r0 hr0
  obtain ⟨u, hu, hbits, hl⟩ := hleast
  have hwz : NumPy.wrap u (n r0) = 0 := by rw [h0]; exact wrap_zero u hu hbits
  clear h0 hlo hmax
  have hleaves : leaves [] l.body = [(f, [])] := by rw [hbody]; rfl
  have hleaf := leaves_named l.body [] hn.body (by simp)
  have hto : toInts ⟨none, .int, 8⟩ true (extractField (tableBytes file l.offset l.records l.recordLength) l.recordLength l.records f []) =
      .ok (((List.range l.records).map n).map (NumPy.wrap u)) := by
    unfold toInts
    rw [hex, hints]
    dsimp only
    rw [hrange]
    dsimp only
    rw [if_pos rfl, hl]
  have hcv : convert E l.binary f.dataType (extractField (tableBytes file l.offset l.records l.recordLength) l.recordLength l.records f []) =
      .ok ((((List.range l.records).map n).map (NumPy.wrap u)).map (fun m => Cell.elem (.int m))) := by
    unfold convert
    rw [ht, show typeKind l.binary c!"ASCII_Integer" = .int ⟨none, .int, 8⟩ true from rfl]
    dsimp only
    rw [hto]
    rfl
  have hread : readField E l (tableBytes file l.offset l.records l.recordLength) f [] =
      .ok ⟨[], (((List.range l.records).map n).map (NumPy.wrap u)).map (fun m => Cell.elem (.int m))⟩ := by
    unfold readField
    rw [hcv]
    dsimp only
    unfold place
    rw [if_neg (by simp), if_pos (by simp)]
  obtain ⟨blocks, h1, h2⟩ := assemble E l file hn (by rw [hbody]; simp [groups])
    (fun _ c => c = ⟨[], (((List.range l.records).map n).map (NumPy.wrap u)).map (fun m => Cell.elem (.int m))⟩)
    (fun _ b => b = [(f.name, (((List.range l.records).map n).map (NumPy.wrap u)).map (fun m => Cell.elem (.int m)))])
    (by
      intro p hp
      rw [hleaves, List.mem_singleton] at hp
      subst hp
      exact ⟨_, hread, rfl⟩)
    (by
      intro p hp x c hx hc
      rw [hleaves, List.mem_singleton] at hp
      subst hp
      have hxf : x = f.name := hx
      subst hxf hc
      refine ⟨_, rfl, ?_⟩
      simp only [List.map_cons, List.map_nil]
      rw [columnName_plain _ (hleaf (f, []) (by rw [hleaves]; simp)).1])
  rw [hleaves] at h2
  cases h2 with
  | cons hb hrest =>
    cases hrest
    subst hb
    refine ⟨_, h1, ?_⟩
    rw [List.getElem?_map, List.getElem?_map, List.getElem?_map, List.getElem?_range hr0]
    simp only [Option.map_some, hwz]

/-! ### cases -/

/-- a label with three nested groups -/
def demoDeep : Label where
  binary := true
  offset := 0
  records := 1
  recordLength := 1
  body := .group ⟨none, 1, 1, 1⟩ (.group ⟨none, 1, 1, 1⟩ (.group ⟨none, 1, 1, 1⟩ (.field ⟨c!"V", 1, 1, c!"UnsignedByte"⟩ .nil) .nil) .nil) .nil

example : readTable demoEnv demoDeep [7] = .error .notImplemented := by
  refine C73_three_groups demoEnv demoDeep [7] ⟨by decide, by decide, ?_, ?_, ?_, ?_⟩ ⟨?_, by simp [demoDeep], by simp [demoDeep]⟩ ?_
  · intro g hg
    simp only [demoDeep, groups, List.cons_append, List.nil_append, List.mem_cons, List.not_mem_nil, or_false, or_self] at hg
    subst hg
    exact ⟨by decide, ⟨1, rfl⟩, by decide⟩
  · intro p hp
    simp only [demoDeep, leaves, List.nil_append, List.cons_append, List.append_nil, List.mem_singleton] at hp
    subst hp
    decide
  · intro p hp ks hks
    simp only [demoDeep, leaves, List.nil_append, List.cons_append, List.append_nil, List.mem_singleton] at hp
    subst hp
    rcases hks with _ | ⟨h1, _ | ⟨h2, _ | ⟨h3, h4⟩⟩⟩
    cases h4
    rename_i a b c
    have h1 : a < 1 := h1
    have h2 : b < 1 := h2
    have h3 : c < 1 := h3
    obtain rfl : a = 0 := by omega
    obtain rfl : b = 0 := by omega
    obtain rfl : c = 0 := by omega
    decide
  · intro p hp r hr ks hks
    simp only [demoDeep, leaves, List.nil_append, List.cons_append, List.append_nil, List.mem_singleton] at hp
    subst hp
    rcases hks with _ | ⟨h1, _ | ⟨h2, _ | ⟨h3, h4⟩⟩⟩
    cases h4
    rename_i a b c
    have h0 : r < 1 := hr
    have h1 : a < 1 := h1
    have h2 : b < 1 := h2
    have h3 : c < 1 := h3
    obtain rfl : r = 0 := by omega
    obtain rfl : a = 0 := by omega
    obtain rfl : b = 0 := by omega
    obtain rfl : c = 0 := by omega
    exact ⟨_, .number rfl (.unsignedByte .big) (.unsigned rfl rfl)⟩
  · have hnone : ∀ (F : Forest), ∀ n, (⟨none, 1, 1, 1⟩ : Group).name = some n → NameOk n ∧ n ∉ groupsHere F := by
      intro F n hn
      cases hn
    exact ⟨hnone _, ⟨hnone _, ⟨hnone _, ⟨nameOk_of (by decide), by decide, trivial⟩, trivial⟩, trivial⟩, trivial⟩
  · exact ⟨(⟨c!"V", 1, 1, c!"UnsignedByte"⟩, [⟨none, 1, 1, 1⟩, ⟨none, 1, 1, 1⟩, ⟨none, 1, 1, 1⟩]), by simp [demoDeep, leaves], by decide⟩

example : ∃ e, readTable demoEnv { demo with body := .group ⟨none, 1, 5, 2⟩ .nil .nil } demoFile = .error e :=
  C73_repetitions _ _ _ ⟨⟨none, 1, 5, 2⟩, by simp [groups], .inr (by decide)⟩

/-- two groups without names, with fields of the same name -/
def demoTwice : Label where
  binary := true
  offset := 0
  records := 1
  recordLength := 2
  body := .group ⟨none, 1, 1, 1⟩ (.field ⟨c!"V", 1, 1, c!"UnsignedByte"⟩ .nil)
    (.group ⟨none, 2, 1, 1⟩ (.field ⟨c!"V", 1, 1, c!"UnsignedByte"⟩ .nil) .nil)

example : ∃ out, readTable demoEnv demoTwice [7, 8] = .ok out ∧ ¬ (out.map (·.1)).Nodup := by
  have hw : ∀ (loc : Nat) (ks : List Nat), Within (reps [⟨none, loc, 1, 1⟩]) ks → ks = [0] := by
    intro loc ks hks
    cases hks with
    | @cons _ k _ _ h1 h2 =>
      cases h2
      have h1 : k < 1 := h1
      obtain rfl : k = 0 := by omega
      rfl
  refine C73_duplicates demoEnv demoTwice [7, 8] ⟨⟨by decide, by decide, ?_, ?_, ?_, ?_⟩, ?_⟩ ⟨?_, by simp [demoTwice], by simp [demoTwice]⟩ 0 1
    (⟨c!"V", 1, 1, c!"UnsignedByte"⟩, [⟨none, 1, 1, 1⟩]) (⟨c!"V", 1, 1, c!"UnsignedByte"⟩, [⟨none, 2, 1, 1⟩]) (by decide) rfl rfl rfl
    ⟨by simp, by simp⟩ ⟨by simp, by simp⟩
  · intro g hg
    simp only [demoTwice, groups, List.cons_append, List.nil_append, List.mem_cons, List.not_mem_nil, or_false] at hg
    rcases hg with rfl | rfl
    · exact ⟨by decide, ⟨1, rfl⟩, by decide⟩
    · exact ⟨by decide, ⟨1, rfl⟩, by decide⟩
  · intro p hp
    simp only [demoTwice, leaves, List.nil_append, List.cons_append, List.append_nil, List.mem_cons, List.not_mem_nil, or_false] at hp
    rcases hp with rfl | rfl <;> decide
  · intro p hp ks hks
    simp only [demoTwice, leaves, List.nil_append, List.cons_append, List.append_nil, List.mem_cons, List.not_mem_nil, or_false] at hp
    rcases hp with rfl | rfl <;> (rw [hw _ ks hks]; decide)
  · intro p hp r hr ks hks
    have h0 : r < 1 := hr
    obtain rfl : r = 0 := by omega
    simp only [demoTwice, leaves, List.nil_append, List.cons_append, List.append_nil, List.mem_cons, List.not_mem_nil, or_false] at hp
    rcases hp with rfl | rfl <;> (rw [hw _ ks hks]; exact ⟨_, .number rfl (.unsignedByte .big) (.unsigned rfl rfl)⟩)
  · intro p hp
    simp only [demoTwice, leaves, List.nil_append, List.cons_append, List.append_nil, List.mem_cons, List.not_mem_nil, or_false] at hp
    rcases hp with rfl | rfl <;> decide
  · exact ⟨(fun n hn => nomatch hn), ⟨nameOk_of (by decide), by decide, trivial⟩, ⟨(fun n hn => nomatch hn), ⟨nameOk_of (by decide), by decide, trivial⟩, trivial⟩⟩

example : shown (readTable demoEnv demoTwice [7, 8]) = .inr [(c!"V_0", [.inl 7]), (c!"V_0", [.inl 8])] := by decide +kernel

/-- three records, of which the file has one -/
def demoShort : Label where
  binary := true
  offset := 1
  records := 3
  recordLength := 2
  body := .field ⟨c!"A", 1, 2, c!"UnsignedLSB2"⟩ .nil

example : ∃ cols, readTable demoEnv demoShort [0, 7, 1] = .ok cols ∧ cols.length = 1 := by
  obtain ⟨cols, h1, h2⟩ := C73_first_record demoEnv demoShort [0, 7, 1] rfl
    ⟨⟨nameOk_of (by decide), by decide, trivial⟩, by simp [demoShort], by simp [demoShort]⟩ rfl (by decide) rfl
    (by intro p hp; simp only [demoShort, leaves, List.mem_singleton] at hp; subst hp; decide)
    (by
      intro p hp
      simp only [demoShort, leaves, List.mem_singleton] at hp
      subst hp
      exact ⟨_, _, .unsigned .little 2 (by decide), .unsigned rfl rfl⟩)
  exact ⟨_, h1, by have := List.Forall₂.length_eq h2; simpa [demoShort, leaves] using this.symm⟩

example : shown (readTable demoEnv demoShort [0, 7, 1]) = .inr [(c!"A", [.inl 263, .inl 263, .inl 263])] := by decide +kernel

/-- the least integer and 5 -/
def demoLeast : Label where
  binary := false
  offset := 0
  records := 2
  recordLength := 21
  body := .field ⟨c!"A", 1, 20, c!"ASCII_Integer"⟩ .nil

def leastFile : Bytes := ("-9223372036854775808\n                   5\n".toList).map (fun c => UInt8.ofNat c.toNat)

theorem digits_are (s : Str) (ds : List Nat) (h : List.Forall₂ (fun (c : Char) d => d < 10 ∧ c.toNat = '0'.toNat + d) s ds) :
    List.Forall₂ DigitOf s ds := h.imp (fun _ _ hc => .inl hc)

example : ∃ cells, readTable demoEnv demoLeast leastFile = .ok ([] ++ [(c!"A", cells)]) ∧ cells[0]? = some (.elem (.int 0)) := by
  refine C73_least demoEnv demoLeast leastFile ⟨c!"A", 1, 20, c!"ASCII_Integer"⟩ rfl
    ⟨⟨nameOk_of (by decide), by decide, trivial⟩, by simp [demoLeast], by simp [demoLeast]⟩ rfl (by decide)
    (fun r => if r = 0 then -9223372036854775808 else 5) ?_ ?_ ⟨1, by decide, by decide⟩ 0 (by decide) rfl
  · intro r hr
    have hr : r < 2 := hr
    have h2 : r = 0 ∨ r = 1 := by omega
    rcases h2 with rfl | rfl
    · refine ⟨c!"-9223372036854775808", ⟨0, 0, leastFile.take 20, by decide +kernel, by unfold Ascii; decide +kernel⟩, .inr (.inr ⟨c!"9223372036854775808", 9223372036854775808, rfl,
        ⟨[9,2,2,3,3,7,2,0,3,6,8,5,4,7,7,5,8,0,8], digits_are _ _ ?_, by simp, by decide, by decide +kernel⟩, rfl⟩)⟩
      repeat' constructor
    · exact ⟨c!"5", ⟨19, 0, [53], by decide +kernel, rfl⟩, .inl ⟨5, numeral_one '5' 5 (.inl ⟨by decide, rfl⟩) (by decide), rfl⟩⟩
  · intro r _
    by_cases h0 : r = 0
    · rw [if_pos h0]; decide
    · rw [if_neg h0]; decide

example : shown (readTable demoEnv demoLeast leastFile) = .inr [(c!"A", [.inl 0, .inl 5])] := by decide +kernel

end Verif.Pds4Table
