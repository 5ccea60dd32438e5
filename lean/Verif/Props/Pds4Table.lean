/-
C72: PDS4 tables with records of fixed length.
-/
import Verif.Lemmas.Pds4Names
import Verif.Lemmas.Pds4Values

namespace Verif.Pds4Table
open Verif.Py Verif.Bits Verif.Datatypes Verif.Image Verif.Table Verif.Table.Spec Verif.ImageFile Verif.ImageFile.Spec
  Verif.Pds4Array.Spec Verif.Literal.Spec Verif.Pds4Table.Spec

/-! ### addresses -/

theorem groupBytes_inRecord (f : Field) (gs : List Group) (ks : List Nat) (h : ks.length = gs.length) :
    (f.location - 1) + groupBytes (gs.map (fun g => g.location - 1)) (gs.map (fun g => g.length / g.repetitions)) ks = inRecord f gs ks := by
  induction gs generalizing ks with
  | nil => simp [groupBytes, inRecord]
  | cons g gs ih =>
    cases ks with
    | nil => cases h
    | cons k ks =>
      have := ih ks (by simpa using h)
      simp only [List.map_cons, groupBytes, inRecord]
      rw [← this, Nat.mul_comm k]
      omega

theorem slice_table (l : Label) (file : Bytes) (x r len : Nat) (hr : r < l.records) (hx : x + len ≤ l.recordLength) :
    slice (tableBytes file l.offset l.records l.recordLength) (l.recordLength * r + x) len =
      bytesAt file (l.offset + r * l.recordLength + x) len := by
  have hm : (r + 1) * l.recordLength ≤ l.records * l.recordLength := Nat.mul_le_mul_right _ hr
  rw [Nat.add_mul, Nat.one_mul] at hm
  have hc : l.recordLength * r = r * l.recordLength := Nat.mul_comm _ _
  unfold tableBytes slice
  by_cases h0 : 0 < l.offset + l.records * l.recordLength
  · rw [if_pos h0]
    have := bytesAt_within file l.offset (l.records * l.recordLength) (l.recordLength * r + x) len (by omega)
    unfold bytesAt at this ⊢
    rw [this]
    congr 2
    omega
  · rw [if_neg h0]
    have : len = 0 := by omega
    subst this
    simp [bytesAt]

theorem leaf_groups {E : Env} {l : Label} {file : Bytes} (h : Placed E l file) {p : Field × List Group} (hp : p ∈ leaves [] l.body) :
    ∀ g ∈ p.2, 1 ≤ g.repetitions := by
  intro g hg
  rcases leaves_groups l.body [] p hp g hg with h' | h'
  · cases h'
  · exact (h.divides g h').1

theorem prod_pos (ns : List Nat) (h : ∀ n ∈ ns, 1 ≤ n) : 0 < prod ns := by
  induction ns with
  | nil => decide
  | cons n ns ih => rw [prod]; exact Nat.mul_pos (h n (by simp)) (ih (fun n hn => h n (by simp [hn])))

/-- a field is read: the values, with the records slowest and the last group fastest -/
theorem readField_ok (E : Env) (l : Label) (file : Bytes) (h : Placed E l file) (p : Field × List Group) (hp : p ∈ leaves [] l.body) :
    ∃ cells, readField E l (tableBytes file l.offset l.records l.recordLength) p.1 p.2 = .ok ⟨reps p.2, cells⟩ ∧
      cells.length = l.records * prod (reps p.2) ∧
      ∀ r < l.records, ∀ ks, Within (reps p.2) ks → ∃ c, cells[r * prod (reps p.2) + ravel (reps p.2) ks]? = some c ∧
        ∀ v, Means E l.binary p.1.dataType (bytesAt file (address l p.1 p.2 r ks) p.1.length) v → Spec.Is c v := by
  obtain ⟨f, gs⟩ := p
  have hex : extractField (tableBytes file l.offset l.records l.recordLength) l.recordLength l.records f gs =
      (positions (l.records :: reps gs)).map (fun q => bytesAt file (address l f gs (q.headD 0) q.tail) f.length) := by
    unfold extractField
    rw [extract_eq _ _ _ _ _ _ _ _ (by simp) (by simp)]
    refine List.map_congr_left (fun q hq => ?_)
    have hw := positions_within _ q hq
    cases hw with
    | cons h1 h2 =>
      rename_i r ks
      have hlen : ks.length = gs.length := by
        have := List.Forall₂.length_eq h2
        simpa using this.symm
      simp only [List.headD_cons, List.tail_cons]
      rw [Nat.add_assoc, groupBytes_inRecord f gs ks hlen, slice_table l file _ r _ h1 (h.within _ hp ks h2)]
      rfl
  have hpos : 0 < prod (l.records :: reps gs) := by
    refine prod_pos _ ?_
    intro n hn
    rcases List.mem_cons.1 hn with rfl | hn
    · exact h.some_records
    · obtain ⟨g, hg, rfl⟩ := List.mem_map.1 hn
      exact leaf_groups h hp g hg
  have hne : (positions (l.records :: reps gs)).map (fun q => bytesAt file (address l f gs (q.headD 0) q.tail) f.length) ≠ [] := by
    intro e
    have := congrArg List.length e
    rw [List.length_map, positions_length] at this
    simp only [List.length_nil] at this
    omega
  obtain ⟨cells, hcv, hF⟩ := convert_ok E l.binary f.dataType _ hne (by
    intro b hb
    obtain ⟨q, hq, rfl⟩ := List.mem_map.1 hb
    have hw := positions_within _ q hq
    cases hw with
    | cons h1 h2 => exact h.values _ hp _ h1 _ h2)
  have hlen : cells.length = l.records * prod (reps gs) := by
    have := List.Forall₂.length_eq hF
    rw [List.length_map, positions_length, prod] at this
    exact this.symm
  refine ⟨cells, ?_, hlen, ?_⟩
  · simp only [readField]
    rw [hex, hcv]
    simp only [place]
    by_cases hg : gs.map (·.repetitions) = []
    · have hg' : reps gs = [] := hg
      rw [if_neg (fun c => c hg)]
      rw [hg'] at hlen
      simp only [prod, Nat.mul_one] at hlen
      rw [if_pos hlen, hg']
    · rw [if_pos hg, if_pos (show cells.length = l.records * prod (gs.map (·.repetitions)) from hlen)]
      rfl
  · intro r hr ks hks
    have hw : Within (l.records :: reps gs) (r :: ks) := .cons hr hks
    have hg := positions_get _ _ hw
    rw [ravel] at hg
    have hlt : r * prod (reps gs) + ravel (reps gs) ks < cells.length := by
      have := ravel_lt _ _ hw
      rw [ravel, prod] at this
      omega
    refine ⟨cells[r * prod (reps gs) + ravel (reps gs) ks], List.getElem?_eq_getElem hlt, ?_⟩
    intro v hv
    have hi := (List.forall₂_iff_get.1 hF).2 (r * prod (reps gs) + ravel (reps gs) ks) (by
      rw [(List.forall₂_iff_get.1 hF).1]; exact hlt) hlt
    simp only [List.get_eq_getElem, List.getElem_map] at hi
    refine hi v ?_
    have he : (positions (l.records :: reps gs))[r * prod (reps gs) + ravel (reps gs) ks]'(by
        have := List.Forall₂.length_eq hF; rw [List.length_map] at this; omega) = r :: ks := by
      rw [List.getElem?_eq_some_iff] at hg
      exact hg.2
    rw [he]
    exact hv

/-! ### columns -/

theorem prod_list (ns : List Nat) : ns.prod = prod ns := by
  induction ns with
  | nil => rfl
  | cons n ns ih => rw [List.prod_cons, prod, ih]

theorem filterMap_range (n : Nat) (g : Nat → Option Cell) (h : ∀ r < n, ∃ c, g r = some c) :
    ((List.range n).filterMap g).length = n ∧ ∀ r < n, ((List.range n).filterMap g)[r]? = g r := by
  induction n with
  | zero => exact ⟨rfl, fun r hr => absurd hr (Nat.not_lt_zero r)⟩
  | succ n ih =>
    obtain ⟨h1, h2⟩ := ih (fun r hr => h r (by omega))
    obtain ⟨c, hc⟩ := h n (by omega)
    have e : (List.range (n + 1)).filterMap g = (List.range n).filterMap g ++ [c] := by
      rw [List.range_succ, List.filterMap_append]
      simp [hc]
    rw [e]
    refine ⟨by simp [h1], fun r hr => ?_⟩
    by_cases hrn : r < n
    · rw [List.getElem?_append_left (by omega), h2 r hrn]
    · have : r = n := by omega
      subst this
      rw [List.getElem?_append_right (by omega), h1, Nat.sub_self, hc]
      rfl

theorem block_gen (records : Nat) (p : Field × List Group) (x : Str) (cells : List Cell) (W : Nat → List Nat → Cell → Prop)
    (hd : p.2.length ≤ 2) (hn : NameOk p.1.name) (hgn : ∀ g ∈ p.2, ∀ n, g.name = some n → NameOk n) (hx : PathOf p.2 p.1.name x)
    (hlen : cells.length = records * prod (reps p.2))
    (hc : ∀ r < records, ∀ ks, Within (reps p.2) ks → ∃ c, cells[r * prod (reps p.2) + ravel (reps p.2) ks]? = some c ∧ W r ks c) :
    ∃ cols, toColumns records x ⟨reps p.2, cells⟩ = .ok cols ∧ (cols.map (fun c => (columnName c.1, c.2))).length = (reps p.2).prod ∧
      ∀ ks, Within (reps p.2) ks → ∃ col, (cols.map (fun c => (columnName c.1, c.2)))[lastFastest (reps p.2) ks]? = some (columnLabel p ks, col) ∧
        col.length = records ∧ ∀ r < records, ∃ c, col[r]? = some c ∧ W r ks c := by
  obtain ⟨f, gs⟩ := p
  simp only at hd hn hgn hx hlen hc
  by_cases hg : gs = []
  · subst hg
    have hxf : x = f.name := hx
    subst hxf
    refine ⟨[(f.name, cells)], rfl, ?_, ?_⟩
    · simp [reps]
    · intro ks hks
      cases hks
      refine ⟨cells, ?_, ?_, ?_⟩
      · simp only [List.map_cons, List.map_nil, columnLabel, if_true, columnName_plain _ hn]
        rfl
      · simpa [reps, prod] using hlen
      · intro r hr
        obtain ⟨c, h1, h2⟩ := hc r hr [] .nil
        simp only [reps, List.map_nil, prod, Nat.mul_one, ravel, Nat.add_zero] at h1
        exact ⟨c, h1, h2⟩
  · have ht : toColumns records x ⟨reps gs, cells⟩ = .ok ((List.range (prod (reps gs))).map (fun k =>
        (x ++ c!"_" ++ natStr k, blockColumn records (prod (reps gs)) k cells))) := by
      unfold toColumns
      cases gs with
      | nil => exact absurd rfl hg
      | cons g gs =>
        cases gs with
        | nil => rfl
        | cons g' gs =>
          cases gs with
          | nil => rfl
          | cons => simp at hd
    refine ⟨_, ht, ?_, ?_⟩
    · simp [prod_list]
    · intro ks hks
      have hlk : (reps gs).length = ks.length := List.Forall₂.length_eq hks
      rw [← ravel_last _ _ hlk]
      have hlt := ravel_lt _ _ hks
      refine ⟨blockColumn records (prod (reps gs)) (ravel (reps gs) ks) cells, ?_, ?_⟩
      · rw [List.map_map, List.getElem?_map, List.getElem?_range hlt]
        simp only [Option.map_some, Function.comp]
        rw [columnName_group gs f.name x _ hx hn hgn, columnLabel, if_neg hg, ← ravel_last _ _ hlk]
      · obtain ⟨h1, h2⟩ := filterMap_range records (fun r => cells[r * prod (reps gs) + ravel (reps gs) ks]?) (by
          intro r hr
          obtain ⟨c, hc, -⟩ := hc r hr ks hks
          exact ⟨c, hc⟩)
        refine ⟨h1, ?_⟩
        intro r hr
        obtain ⟨c, h3, h4⟩ := hc r hr ks hks
        exact ⟨c, by unfold blockColumn; rw [h2 r hr]; exact h3, h4⟩

theorem block_ok (E : Env) (l : Label) (file : Bytes) (p : Field × List Group) (x : Str) (cells : List Cell)
    (hd : p.2.length ≤ 2) (hn : NameOk p.1.name) (hgn : ∀ g ∈ p.2, ∀ n, g.name = some n → NameOk n) (hx : PathOf p.2 p.1.name x)
    (hlen : cells.length = l.records * prod (reps p.2))
    (hc : ∀ r < l.records, ∀ ks, Within (reps p.2) ks → ∃ c, cells[r * prod (reps p.2) + ravel (reps p.2) ks]? = some c ∧
        ∀ v, Means E l.binary p.1.dataType (bytesAt file (address l p.1 p.2 r ks) p.1.length) v → Spec.Is c v) :
    ∃ cols, toColumns l.records x ⟨reps p.2, cells⟩ = .ok cols ∧
      Block E l file p (cols.map (fun c => (columnName c.1, c.2))) := by
  obtain ⟨cols, h1, h2, h3⟩ := block_gen l.records p x cells (fun r ks c =>
    ∀ v, Means E l.binary p.1.dataType (bytesAt file (address l p.1 p.2 r ks) p.1.length) v → Spec.Is c v) hd hn hgn hx hlen hc
  refine ⟨cols, h1, h2, fun ks hks => ?_⟩
  obtain ⟨col, h4, h5, h6⟩ := h3 ks hks
  refine ⟨col, h4, h5, fun r hr v hv => ?_⟩
  obtain ⟨c, h7, h8⟩ := h6 r hr
  exact ⟨c, h7, h8 v hv⟩

theorem mapM_append {α β : Type} (g : α → Except PyErr β) (a b : List α) (x y : List β) (h1 : a.mapM g = .ok x) (h2 : b.mapM g = .ok y) :
    (a ++ b).mapM g = .ok (x ++ y) := by
  rw [List.mapM_append, h1, h2]
  rfl

theorem mapM_zip {α : Type} (g : Str × Column → Except PyErr (List (Str × List Cell))) (Q : α → List (Str × List Cell) → Prop)
    {ps : List α} {xs : List Str} {cs : List Column} {R : α → Str → Prop} {S : α → Column → Prop}
    (hx : List.Forall₂ R ps xs) (hc : List.Forall₂ S ps cs) (h : ∀ p ∈ ps, ∀ x c, R p x → S p c → ∃ b, g (x, c) = .ok b ∧ Q p b) :
    ∃ bs, (xs.zip cs).mapM g = .ok bs ∧ List.Forall₂ Q ps bs := by
  induction ps generalizing xs cs with
  | nil => cases hx; cases hc; exact ⟨[], rfl, .nil⟩
  | cons p ps ih =>
    cases hx with
    | cons a1 a2 =>
      cases hc with
      | cons b1 b2 =>
        obtain ⟨bs, e1, e2⟩ := ih a2 b2 (fun p hp => h p (by simp [hp]))
        obtain ⟨b, e3, e4⟩ := h p (by simp) _ _ a1 b1
        exact ⟨b :: bs, by rw [List.zip_cons_cons, List.mapM_cons, e3, e1]; rfl, .cons e4 e2⟩

/-- the data frame from its fields; `fs` may say more about the fields than the label -/
theorem frame_gen {α : Type} (field : α → Field × List Group) (l : Label) (hn : NamedTable l) (fs : List α) (hfs : fs.map field = leaves [] l.body)
    (cs : List Column) (S : α → Column → Prop) (Q : α → List (Str × List Cell) → Prop)
    (hF : List.Forall₂ S fs cs)
    (hcol : ∀ p ∈ fs, ∀ x c, PathOf (field p).2 (field p).1.name x → S p c →
      ∃ b, toColumns l.records x c = .ok b ∧ Q p (b.map (fun c => (columnName c.1, c.2)))) :
    ∃ blocks, frame l cs = .ok (l.uniform.map (fun u => (u.name, u.values)) ++ blocks.flatten) ∧
      List.Forall₂ Q fs blocks := by
  obtain ⟨hnames, hnodup⟩ := fieldNames_eq l hn
  have hpath := rel_path l.body 0 []
  rw [← hfs, List.forall₂_map_left_iff] at hpath
  obtain ⟨bs, hbs, hB⟩ := mapM_zip (fun p => toColumns l.records p.1 p.2)
    (fun p b => Q p (b.map (fun c => (columnName c.1, c.2)))) hpath hF (by
      rintro p hp x c ⟨hs, e, hx⟩ hc
      rw [List.nil_append] at e
      refine hcol p hp x c ?_ hc
      rw [e]
      exact hx)
  have hu : ((l.uniform.map (·.name)).zip (l.uniform.map (fun u => (⟨[], u.values⟩ : Column)))).mapM
      (fun p => toColumns l.records p.1 p.2) = .ok (l.uniform.map (fun u => [(u.name, u.values)])) := by
    clear hnames hnodup hbs hB hF
    induction l.uniform with
    | nil => rfl
    | cons u us ih =>
      simp only [List.map_cons, List.zip_cons_cons, List.mapM_cons]
      rw [ih]
      rfl
  refine ⟨bs.map (fun b => b.map (fun c => (columnName c.1, c.2))), ?_, ?_⟩
  · unfold frame
    simp only
    rw [if_neg (fun c => c hnodup), hnames, List.zip_append (by simp), mapM_append _ _ _ _ _ hu hbs]
    simp only
    rw [List.flatten_append, List.map_append]
    congr 2
    · have : ∀ us : List Uniform, (∀ u ∈ us, NameOk u.name) → (us.map (fun u => [(u.name, u.values)])).flatten.map (fun c => (columnName c.1, c.2)) =
          us.map (fun u => (u.name, u.values)) := by
        intro us
        induction us with
        | nil => intro _; rfl
        | cons u us ih =>
          intro hus
          simp only [List.map_cons, List.flatten_cons, List.cons_append, List.nil_append]
          rw [ih (fun u hu => hus u (by simp [hu])), columnName_plain _ (hus u (by simp))]
      exact this _ (fun u hu => (hn.uniform u hu).1)
    · rw [List.map_flatten]
  · rw [List.forall₂_map_right_iff]
    exact hB

/-- the data frame from its fields -/
theorem frame_ok (l : Label) (hn : NamedTable l) (cs : List Column)
    (S : Field × List Group → Column → Prop) (Q : Field × List Group → List (Str × List Cell) → Prop)
    (hF : List.Forall₂ S (leaves [] l.body) cs)
    (hcol : ∀ p ∈ leaves [] l.body, ∀ x c, PathOf p.2 p.1.name x → S p c →
      ∃ b, toColumns l.records x c = .ok b ∧ Q p (b.map (fun c => (columnName c.1, c.2)))) :
    ∃ blocks, frame l cs = .ok (l.uniform.map (fun u => (u.name, u.values)) ++ blocks.flatten) ∧
      List.Forall₂ Q (leaves [] l.body) blocks :=
  frame_gen id l hn _ (List.map_id _) cs S Q hF hcol

/-- the table from its fields -/
theorem assemble (E : Env) (l : Label) (file : Bytes) (hn : NamedTable l)
    (hdiv : ∀ g ∈ groups l.body, 1 ≤ g.repetitions ∧ g.repetitions ∣ g.length)
    (S : Field × List Group → Column → Prop) (Q : Field × List Group → List (Str × List Cell) → Prop)
    (hread : ∀ p ∈ leaves [] l.body, ∃ c, readField E l (tableBytes file l.offset l.records l.recordLength) p.1 p.2 = .ok c ∧ S p c)
    (hcol : ∀ p ∈ leaves [] l.body, ∀ x c, PathOf p.2 p.1.name x → S p c →
      ∃ b, toColumns l.records x c = .ok b ∧ Q p (b.map (fun c => (columnName c.1, c.2)))) :
    ∃ blocks, readTable E l file = .ok (l.uniform.map (fun u => (u.name, u.values)) ++ blocks.flatten) ∧
      List.Forall₂ Q (leaves [] l.body) blocks := by
  obtain ⟨cs, hcs, hF⟩ := mapM_rel
    (fun p => readField E l (tableBytes file l.offset l.records l.recordLength) p.1 p.2) S (leaves [] l.body) hread
  have hv : validate (manifest 0 l.body) = .ok () := by
    have := validate_ok 0 l.body hdiv []
    rw [List.append_nil] at this
    rw [this]
    rfl
  obtain ⟨blocks, h1, h2⟩ := frame_ok l hn cs S Q hF hcol
  refine ⟨blocks, ?_, h2⟩
  unfold readTable
  simp only
  rw [hv]
  simp only
  rw [fields_eq, hcs]
  exact h1

/-- **C72**: A PDS4 table with records of fixed length is read as what its label and its bytes say. After the uniformly
sampled fields, every field of the label has, in order, one column for each repetition of the groups it is in, named after
the groups and the field, and in each record the value is the one that the bytes of this record and repetition stand for. -/
theorem C72_table (E : Env) (l : Label) (file : Bytes) (h : Readable E l file) (hn : NamedTable l) :
    ∃ blocks, readTable E l file = .ok (l.uniform.map (fun u => (u.name, u.values)) ++ blocks.flatten) ∧
      List.Forall₂ (Block E l file) (leaves [] l.body) blocks := by
  have hleaf := leaves_named l.body [] hn.body (by simp)
  refine assemble E l file hn (fun g hg => ⟨(h.divides g hg).1, (h.divides g hg).2.1⟩)
    (fun p c => ∃ cells, c = ⟨reps p.2, cells⟩ ∧ cells.length = l.records * prod (reps p.2) ∧
      ∀ r < l.records, ∀ ks, Within (reps p.2) ks → ∃ c, cells[r * prod (reps p.2) + ravel (reps p.2) ks]? = some c ∧
        ∀ v, Means E l.binary p.1.dataType (bytesAt file (address l p.1 p.2 r ks) p.1.length) v → Spec.Is c v) _ ?_ ?_
  · intro p hp
    obtain ⟨cells, h1, h2, h3⟩ := readField_ok E l file h.toPlaced p hp
    exact ⟨_, h1, cells, rfl, h2, h3⟩
  · rintro p hp x c hx ⟨cells, rfl, h1, h2⟩
    exact block_ok E l file p x cells (h.depth p hp) (hleaf p hp).1 (hleaf p hp).2 hx h1 h2

/-! ### a table -/

def demoEnv : Env := ⟨fun _ _ => none, fun b => some (latin b)⟩

/-- two records of nine bytes after a byte of something else -/
def demo : Label where
  binary := true
  offset := 1
  records := 2
  recordLength := 9
  uniform := [⟨c!"S", [.elem (.int 0), .elem (.int 1)]⟩]
  body := .field ⟨c!"ID", 1, 3, c!"ASCII_Integer"⟩
    (.group ⟨none, 4, 4, 2⟩ (.field ⟨c!"V", 1, 2, c!"UnsignedMSB2"⟩ .nil) (.field ⟨c!"T", 8, 2, c!"UTF8_String"⟩ .nil))

def demoFile : Bytes := [9, 45, 49, 50, 0, 1, 0, 2, 97, 98, 32, 55, 32, 255, 255, 3, 4, 99, 0]

theorem numeral_one (c : Char) (d : Nat) (h : DigitOf c d) (hd : d < 10) : Numeral 10 [c] d :=
  ⟨[d], .cons h .nil, by simp, by simpa using hd, by simp [value]⟩

theorem demo_placed : Placed demoEnv demo demoFile where
  some_records := by decide
  whole := by decide
  divides := by
    intro g hg
    simp only [demo, groups, List.cons_append, List.nil_append, List.mem_singleton] at hg
    subst hg
    exact ⟨by decide, ⟨2, rfl⟩, by decide⟩
  located := by
    intro p hp
    simp only [demo, leaves, List.nil_append, List.cons_append, List.mem_cons, List.not_mem_nil, or_false] at hp
    rcases hp with rfl | rfl | rfl <;> decide
  within := by
    intro p hp ks hks
    simp only [demo, leaves, List.nil_append, List.cons_append, List.mem_cons, List.not_mem_nil, or_false] at hp
    rcases hp with rfl | rfl | rfl
    · cases hks; decide
    · cases hks with
      | cons h1 h2 =>
        cases h2
        have h1' : _ < 2 := h1
        show _ + _ + _ + 2 ≤ 9
        simp only [inRecord]
        omega
    · cases hks; decide
  values := by
    intro p hp r hr ks hks
    have hr2 : r = 0 ∨ r = 1 := by
      have : r < 2 := hr
      omega
    simp only [demo, leaves, List.nil_append, List.cons_append, List.mem_cons, List.not_mem_nil, or_false] at hp
    rcases hp with rfl | rfl | rfl
    · cases hks
      rcases hr2 with rfl | rfl
      · exact ⟨_, .integer (s := c!"-12") (n := -12) ⟨0, 0, [45, 49, 50], rfl, rfl⟩
          (.inr (.inr ⟨c!"12", 12, rfl, ⟨[1, 2], .cons (.inl ⟨by decide, rfl⟩) (.cons (.inl ⟨by decide, rfl⟩) .nil), by simp, by simp, rfl⟩, rfl⟩))
          (by decide) (by decide)⟩
      · exact ⟨_, .integer (s := c!"7") (n := 7) ⟨1, 1, [55], rfl, rfl⟩
          (.inl ⟨7, numeral_one '7' 7 (.inl ⟨by decide, rfl⟩) (by decide), rfl⟩) (by decide) (by decide)⟩
    · cases hks with
      | @cons _ k _ _ h1 h2 =>
        cases h2
        have hk : k = 0 ∨ k = 1 := by
          have : k < 2 := h1
          omega
        rcases hr2 with rfl | rfl <;> rcases hk with rfl | rfl <;>
          exact ⟨_, .number rfl (.unsigned .big 2 (by decide)) (.unsigned rfl rfl)⟩
    · cases hks
      rcases hr2 with rfl | rfl
      · exact ⟨_, .text (b := [97, 98]) (k := 0) (by decide) (by decide) rfl⟩
      · exact ⟨_, .text (b := [99]) (k := 1) (by decide) (by decide) rfl⟩

theorem demo_readable : Readable demoEnv demo demoFile where
  toPlaced := demo_placed
  depth := by
    intro p hp
    simp only [demo, leaves, List.nil_append, List.cons_append, List.mem_cons, List.not_mem_nil, or_false] at hp
    rcases hp with rfl | rfl | rfl <;> decide

theorem nameOk_of {s : Str} (h : s ≠ [] ∧ ',' ∉ s ∧ ':' ∉ s ∧ 'G' ∉ s ∧ s.head? ≠ some ' ' ∧ s.getLast? ≠ some ' ') : NameOk s :=
  ⟨h.1, h.2.1, h.2.2.1, fun c => h.2.2.2.1 (c.subset (by decide)), h.2.2.2.2.1, h.2.2.2.2.2⟩

theorem demo_named : NamedTable demo where
  body := ⟨nameOk_of (by decide), by decide, ⟨(fun n hn => Option.noConfusion rfl (heq_of_eq hn)), ⟨nameOk_of (by decide), by decide, trivial⟩,
    ⟨nameOk_of (by decide), by decide, trivial⟩⟩⟩
  uniform := by
    intro u hu
    simp only [demo, List.mem_singleton] at hu
    subst hu
    exact ⟨nameOk_of (by decide), by decide⟩
  different := by decide

/-- the integers and texts of columns -/
def shown (r : Except PyErr (List (Str × List Cell))) : PyErr ⊕ List (Str × List (Int ⊕ Str)) :=
  match r with
  | .error e => .inl e
  | .ok cols => .inr (cols.map (fun c => (c.1, c.2.map (fun x => match x with
    | .elem (.int v) => .inl v
    | .text s => .inr s
    | _ => .inl 0))))

example : shown (readTable demoEnv demo demoFile) = .inr
    [(c!"S", [.inl 0, .inl 1]), (c!"ID", [.inl (-12), .inl 7]), (c!"V_0", [.inl 1, .inl 65535]), (c!"V_1", [.inl 2, .inl 772]),
     (c!"T", [.inr c!"ab", .inr c!"c"])] := by decide +kernel

end Verif.Pds4Table
