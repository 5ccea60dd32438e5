/-
C127, C128: PDS4 products with tables of records of fixed length, from the XML of the label to the values.
-/
import Verif.Props.Pds4Read
import Verif.Props.Pds4Table

namespace Verif.Pds4Read
open Verif.Py Verif.Pvl Verif.Xml.Spec Verif.Objects.Spec Verif.Pds4Read.Spec

/-! ### names without their prefix -/

theorem replaceFuel_absent (p : Str) (s : Str) (h : ¬ p <:+: s) : ∀ n, Xml.replaceFuel p [] n s = s := by
  induction s with
  | nil => intro n; cases n <;> rfl
  | cons c s ih =>
    intro n
    cases n with
    | zero => rfl
    | succ n =>
      rw [Xml.replaceFuel, if_neg, ih (fun h' => h (h'.trans (List.suffix_cons c s).isInfix))]
      rw [List.isPrefixOf_iff_prefix]
      exact fun hp => h hp.isInfix

theorem replace_absent {p s : Str} (h : ¬ p <:+: s) : Xml.replace p [] s = s := replaceFuel_absent p s h _

theorem replace_front {p s : Str} (hp : p ≠ []) (h : ¬ p <:+: s) : Xml.replace p [] (p ++ s) = s := by
  unfold Xml.replace
  cases p with
  | nil => exact absurd rfl hp
  | cons c p =>
    simp only [List.cons_append, List.length_cons]
    rw [Xml.replaceFuel, if_pos, List.nil_append]
    · rw [show (c :: (p ++ s)).drop (c :: p).length = s by simp]
      exact replaceFuel_absent _ _ h _
    · rw [List.isPrefixOf_iff_prefix]
      exact ⟨s, by simp⟩

theorem short_iff {pre t n : Str} (hp : pre ≠ []) (hn : ¬ pre <:+: n) (h : ¬ pre <:+: t ∨ ∃ m, t = pre ++ m ∧ ¬ pre <:+: m) :
    Xml.replace pre [] t = n ↔ t = n ∨ t = pre ++ n := by
  rcases h with h | ⟨m, rfl, h⟩
  · rw [replace_absent h]
    refine ⟨Or.inl, fun h' => h'.elim id (fun e => ?_)⟩
    exact absurd (e ▸ (List.prefix_append pre n).isInfix) h
  · rw [replace_front hp h]
    refine ⟨fun e => Or.inr (e ▸ rfl), fun h' => h'.elim (fun e => ?_) (fun e => List.append_cancel_left e)⟩
    exact absurd (e ▸ (List.prefix_append pre m).isInfix) hn

/-! ### descriptions of fields and groups -/

/-- how they are made -/
def optsP (pre : Str) : Xml.Options := ⟨true, true, Xml.castIgnore, [(pre, [])]⟩

def valP (E : Xml.Floats ℚ) (pre : Str) (d : Doc) : Value := (Xml.xmlToDict E (optsP pre) (C d)).2

def dictP (E : Xml.Floats ℚ) (pre : Str) (x : Doc) : Dict :=
  Xml.unwrap (Xml.group ((kids x).map (fun k => Xml.xmlToDict E (optsP pre) (C k))))

theorem xmlToDictL_mapP (E : Xml.Floats ℚ) (pre : Str) (ds : List Doc) :
    Xml.xmlToDictL E (optsP pre) (ds.map C) = ds.map (fun k => Xml.xmlToDict E (optsP pre) (C k)) := by
  induction ds with
  | nil => rfl
  | cons d ds ih => simp only [List.map_cons, Xml.xmlToDictL, ih]

theorem xmlToDict_fstP (E : Xml.Floats ℚ) (pre : Str) (d : Doc) (h : NamedAs d) :
    (Xml.xmlToDict E (optsP pre) (C d)).1 = Xml.replace pre [] (tag d) := by
  rw [← C_tag h]
  cases hc : C d with
  | mk t a x k => simp [Xml.xmlToDict, optsP, Xml.modify, tagOf]

theorem loadPart_eq (E : Xml.Floats ℚ) (pre : Str) (x : Doc) (h : Container x) : loadPart E pre (C x) = .ok (dictP E pre x) := by
  have hv : (Xml.xmlToDict E (optsP pre) (C x)).2 = .map (dictP E pre x) := by
    have hk := C_kids x
    unfold dictP
    rw [← xmlToDictL_mapP]
    cases x with
    | mk dc ns name attrs text ks =>
      obtain ⟨h1, h2⟩ := h
      simp only [kids, Spec.text] at h1 h2 hk ⊢
      simp only [C, etree, Xml.convenient] at hk ⊢
      simp only [kidsOf] at hk
      rw [hk]
      have hne : Xml.xmlToDictL E (optsP pre) (ks.map C) ≠ [] := by
        cases ks with
        | nil => exact absurd rfl h1
        | cons e es => intro h; cases h
      simp only [Xml.xmlToDict, Xml.valueOf, optsP, Bool.not_true, Bool.and_false, Bool.false_eq_true, if_false] at hne ⊢
      generalize Xml.xmlToDictL E ⟨true, true, Xml.castIgnore, [(pre, [])]⟩ (ks.map C) = kk at hne ⊢
      have h1' : (kk.isEmpty && (attrs.map (fun a => (a.1, Xml.tidy a.2))).isEmpty) = false := by simp [hne]
      rw [h1']
      have hkl : (etreeL ks).isEmpty = false := by
        cases ks with
        | nil => exact absurd rfl h1
        | cons e es => rfl
      rw [hkl]
      cases text with
      | none => rfl
      | some t =>
        simp only [Bool.false_eq_true, if_false]
        rw [if_pos ((Xml.strip_isEmpty t).mpr (h2 t rfl))]
  unfold loadPart
  unfold optsP at hv
  rw [hv]
  simp only
  rw [Xml.update_nodup _ [] (by unfold dictP; simpa using dict_keys_nodup _)]
  rfl

/-- what the description of a field or group has under a name -/
theorem lookup_dictP (E : Xml.Floats ℚ) {pre : Str} (hpre : pre ≠ []) {x : Doc} (h : ∀ e ∈ elements x, NamedAs e) (hp : PlainNames pre x)
    {n : Str} (hn : ¬ pre <:+: n) : (dictP E pre x).lookup n = packed ((called pre n x).map (valP E pre)) := by
  unfold dictP
  rw [lookup_unwrap]
  congr 1
  unfold called
  have hk : ∀ k ∈ kids x, NamedAs k := fun k hk => named_self (named_kid h hk)
  unfold PlainNames at hp
  generalize kids x = ks at hk hp
  induction ks with
  | nil => rfl
  | cons k ks ih =>
    have ih := ih (fun k' h' => hk k' (List.mem_cons_of_mem _ h')) (fun k' h' => hp k' (List.mem_cons_of_mem _ h'))
    have h1 := xmlToDict_fstP E pre k (hk k List.mem_cons_self)
    have h2 := short_iff hpre hn (hp k List.mem_cons_self)
    rw [List.map_cons]
    by_cases ht : tag k = n ∨ tag k = pre ++ n
    · rw [List.filter_cons_of_pos (by simpa [h1] using h2.mpr ht), List.filter_cons_of_pos (by simpa using ht), List.map_cons, ih]
      rfl
    · rw [List.filter_cons_of_neg (by simpa [h1] using fun e => ht (h2.mp e)), List.filter_cons_of_neg (by simpa using ht), ih]

theorem mem_called {pre n : Str} {x c : Doc} (h : c ∈ called pre n x) : c ∈ kids x ∧ (tag c = n ∨ tag c = pre ++ n) := by
  unfold called at h
  simpa using h

theorem hasKeysP (E : Xml.Floats ℚ) {pre : Str} (hpre : pre ≠ []) {x : Doc} (h : ∀ e ∈ elements x, NamedAs e) (hp : PlainNames pre x)
    {ks : List Str} (hn : ∀ k ∈ ks, ¬ pre <:+: k) : hasKeys ks (dictP E pre x) = true ↔ ∀ k ∈ ks, called pre k x ≠ [] := by
  unfold hasKeys
  rw [List.all_eq_true]
  refine forall₂_congr (fun k hk => ?_)
  rw [lookup_dictP E hpre h hp (hn k hk)]
  rcases called pre k x with _ | ⟨a, _ | ⟨b, r⟩⟩ <;> simp [packed]

/-- the value of a text -/
theorem valP_says (E : Xml.Floats ℚ) {pre : Str} {c : Doc} {s : Str} (h : Says c s) (hn : NamedAs c) :
    valP E pre c = .leaf (some (if Xml.replace pre [] (tag c) ∈ Xml.castIgnore then .text s else Xml.castText E s)) := by
  obtain ⟨t, a, h1, h2⟩ := C_says h
  have h3 := C_tag hn
  rw [h1] at h3
  simp only [tagOf] at h3
  have h4 : (strip s).isEmpty = false := by
    rw [← Bool.not_eq_true]
    exact fun h' => h2 ((Xml.strip_isEmpty s).mp h')
  unfold valP optsP
  rw [h1]
  simp only [Xml.xmlToDict, Xml.xmlToDictL, Xml.valueOf, h4, Xml.modify, List.foldl_cons, List.foldl_nil, h3, Xml.convert]
  by_cases hc : Xml.replace pre [] (tag c) ∈ Xml.castIgnore
  · simp [hc]
  · simp [hc]

/-- the part of that name -/
theorem part_lookup (E : Xml.Floats ℚ) {pre : Str} (hpre : pre ≠ []) {x : Doc} (h : ∀ e ∈ elements x, NamedAs e) (hp : PlainNames pre x)
    {n : Str} (hn : ¬ pre <:+: n) {c : Doc} (hc : called pre n x = [c]) {s : Str} (hs : Says c s) :
    (dictP E pre x).lookup n = some (.leaf (some (if n ∈ Xml.castIgnore then .text s else Xml.castText E s))) := by
  have hm : c ∈ called pre n x := by rw [hc]; exact List.mem_cons_self
  have h1 := named_self (named_kid h (mem_called hm).1)
  rw [lookup_dictP E hpre h hp hn, hc]
  simp only [List.map_cons, List.map_nil, packed]
  rw [valP_says E hs h1, (short_iff hpre hn (hp c (mem_called hm).1)).mpr (mem_called hm).2]

theorem part_nat (E : Xml.Floats ℚ) {pre : Str} (hpre : pre ≠ []) {x : Doc} (h : ∀ e ∈ elements x, NamedAs e) (hp : PlainNames pre x)
    {n : Str} (hn : ¬ pre <:+: n) (hi : n ∉ Xml.castIgnore) {m : Nat} (hs : Part pre x n (fun c => SaysNat c m)) :
    (dictP E pre x).lookup n = some (.leaf (some (.int m))) := by
  obtain ⟨c, h1, s, h2, h3⟩ := hs
  have h4 : Literal.pyInt s 10 = some (m : Int) := Literal.pyInt_ok (b := 10) (Or.inl ⟨m, h3, rfl⟩) (by omega) (by omega)
  rw [part_lookup E hpre h hp hn h1 h2, if_neg hi, Xml.castText, h4]

theorem natOf_int (m : Nat) : natOf (some (.leaf (some (.int (m : Int))))) = some m := by
  simp [natOf]

/-! ### texts that are no numbers -/

theorem alpha_range {c : Char} (h : c.isAlpha = true) : 65 ≤ c.toNat ∧ c.toNat ≤ 90 ∨ 97 ≤ c.toNat ∧ c.toNat ≤ 122 := by
  unfold Char.isAlpha Char.isUpper Char.isLower at h
  simp only [Bool.or_eq_true, Bool.and_eq_true, decide_eq_true_eq, ge_iff_le, UInt32.le_iff_toNat_le] at h
  have e : c.val.toNat = c.toNat := rfl
  have a1 : ('A' : Char).val.toNat = 65 := rfl
  have a2 : ('Z' : Char).val.toNat = 90 := rfl
  have a3 : ('a' : Char).val.toNat = 97 := rfl
  have a4 : ('z' : Char).val.toNat = 122 := rfl
  rw [e, a1, a2, a3, a4] at h
  exact h

theorem digitsVal_bad (b : Nat) (hb : b ≤ 10) {c : Char} (hc : c.isAlpha = true ∨ c = '%') {s : Str} (h : c ∈ s) :
    ∀ acc u, Literal.digitsVal b acc u s = none := by
  induction s with
  | nil => cases h
  | cons d s ih =>
    intro acc u
    unfold Literal.digitsVal
    rcases List.mem_cons.mp h with rfl | h
    · have hu : c ≠ '_' := by
        rintro rfl
        rcases hc with hc | hc <;> revert hc <;> decide
      rw [if_neg hu]
      cases hd : Literal.digitVal c with
      | none => rfl
      | some k =>
        simp only
        rw [if_neg]
        unfold Literal.digitVal at hd
        simp only at hd
        rcases hc with hc | rfl
        · have hc := alpha_range hc
          split at hd
          · omega
          · split at hd
            · cases hd; omega
            · split at hd
              · cases hd; omega
              · cases hd
        · rw [if_neg (by decide), if_neg (by decide), if_neg (by decide)] at hd
          cases hd
    · have ih := ih h
      by_cases hu : d = '_'
      · rw [if_pos hu]
        cases u
        · exact ih _ _
        · rfl
      · rw [if_neg hu]
        cases Literal.digitVal d with
        | none => rfl
        | some k =>
          simp only
          split
          · exact ih _ _
          · rfl

theorem unsignedInt_bad {c : Char} (hc : c.isAlpha = true ∨ c = '%') {s : Str} (h : c ∈ s) : Literal.unsignedInt 10 s = none := by
  unfold Literal.unsignedInt
  simp only
  cases hr : Literal.radixPrefix s with
  | none =>
    simp only
    rw [if_neg (by decide)]
    exact digitsVal_bad 10 (by decide) hc h _ _
  | some p =>
    simp only
    have hb : p.1 = 16 ∨ p.1 = 8 ∨ p.1 = 2 := by
      unfold Literal.radixPrefix at hr
      split at hr
      · split at hr
        · cases hr; simp
        · split at hr
          · cases hr; simp
          · split at hr
            · cases hr; simp
            · cases hr
      · cases hr
    rw [if_neg (by omega)]
    exact digitsVal_bad 10 (by decide) hc h _ _

theorem mem_dropWhile {p : Char → Bool} {s : Str} {c : Char} (h : c ∈ s) (hp : p c = false) : c ∈ s.dropWhile p := by
  induction s with
  | nil => cases h
  | cons d s ih =>
    rw [List.dropWhile_cons]
    split
    · rcases List.mem_cons.mp h with rfl | h
      · simp_all
      · exact ih h
    · exact h

theorem mem_strip {s : Str} {c : Char} (h : c ∈ s) (hc : isSpace c = false) : c ∈ strip s := by
  unfold strip
  simp only [rstrip, lstrip, List.mem_reverse]
  exact mem_dropWhile (List.mem_reverse.mpr (mem_dropWhile h hc)) hc

theorem wordy_no_int {s : Str} (h : ∃ c ∈ s, c.isAlpha = true ∨ c = '%') : Literal.pyInt s 10 = none := by
  obtain ⟨c, hc, hw⟩ := h
  have hsp : isSpace c = false := by
    rw [← Bool.not_eq_true]
    intro hs
    rcases hw with hw | rfl
    · have hw := alpha_range hw
      unfold isSpace at hs
      simp at hs
      omega
    · revert hs; decide
  have hm := mem_strip hc hsp
  unfold Literal.pyInt
  rw [if_neg (by decide)]
  have hne : c ≠ '-' ∧ c ≠ '+' := by
    constructor <;> (rintro rfl; rcases hw with hw | hw <;> revert hw <;> decide)
  split
  · rename_i r hr
    rw [hr] at hm
    rw [show (10 : Int).toNat = 10 from rfl, unsignedInt_bad hw ((List.mem_cons.mp hm).resolve_left hne.1)]
    rfl
  · rename_i r hr
    rw [hr] at hm
    rw [show (10 : Int).toNat = 10 from rfl, unsignedInt_bad hw ((List.mem_cons.mp hm).resolve_left hne.2)]
    rfl
  · rw [show (10 : Int).toNat = 10 from rfl, unsignedInt_bad hw hm]
    rfl

theorem castText_wordy {M : Machine} {s : Str} (h : Wordy M s) : Xml.castText M.floats s = .text s := by
  unfold Xml.castText
  rw [wordy_no_int h.1, h.2]

/-! ### fields and groups -/

theorem no_field {n : Str} (h : contains n c!"field_" = false) : ¬ c!"field_" <:+: n := by
  rw [← Datatypes.contains_iff, h]; decide

theorem no_group {n : Str} (h : contains n c!"group_" = false) : ¬ c!"group_" <:+: n := by
  rw [← Datatypes.contains_iff, h]; decide

theorem part_some {pre n : Str} {x : Doc} {P : Doc → Prop} (h : Part pre x n P) : called pre n x ≠ [] := by
  obtain ⟨c, h, -⟩ := h
  rw [h]
  simp

/-- a field that is described is read -/
theorem field_ok (M : Machine) {type : Str} {x : Doc} (h : ∀ e ∈ elements x, NamedAs e) {f : Pds4Table.Field}
    (hf : FieldDoc M type x f) : ∃ d, loadField M.floats type (C x) = .ok d ∧ fieldOf type d = some f ∧
      (d.lookup c!"format" = none ∨ ∃ s, d.lookup c!"format" = some (.leaf (some (.text s)))) := by
  have hp := hf.plain
  have h1 : strOf ((dictP M.floats c!"field_" x).lookup c!"name") = some f.name := by
    obtain ⟨c, h1, h2⟩ := hf.name
    rw [part_lookup M.floats (by decide) h hp (no_field (by decide)) h1 h2, if_pos (by decide)]
    rfl
  have h2 : strOf ((dictP M.floats c!"field_" x).lookup c!"data_type") = some f.dataType := by
    obtain ⟨c, h1, h2⟩ := hf.type
    rw [part_lookup M.floats (by decide) h hp (no_field (by decide)) h1 h2, if_neg (by decide), castText_wordy hf.wordy]
    rfl
  have hplace := hf.place
  refine ⟨dictP M.floats c!"field_" x, ?_, ?_, ?_⟩
  · unfold loadField
    rw [loadPart_eq M.floats _ x hf.container]
    simp only
    rw [if_pos]
    by_cases ht : type = c!"Delimited"
    · rw [if_pos ht, hasKeysP M.floats (by decide) h hp]
      · intro k hk
        simp only [List.mem_cons, List.not_mem_nil, or_false] at hk
        rcases hk with rfl | rfl
        · exact part_some hf.name
        · exact part_some hf.type
      · intro k hk
        simp only [List.mem_cons, List.not_mem_nil, or_false] at hk
        rcases hk with rfl | rfl <;> exact no_field (by decide)
    · rw [if_neg ht] at hplace
      rw [if_neg ht, hasKeysP M.floats (by decide) h hp]
      · intro k hk
        simp only [List.mem_cons, List.not_mem_nil, or_false] at hk
        rcases hk with rfl | rfl | rfl | rfl
        · exact part_some hf.name
        · exact part_some hplace.1
        · exact part_some hplace.2
        · exact part_some hf.type
      · intro k hk
        simp only [List.mem_cons, List.not_mem_nil, or_false] at hk
        rcases hk with rfl | rfl | rfl | rfl <;> exact no_field (by decide)
  · obtain ⟨name, location, length, dt⟩ := f
    simp only at h1 h2 hplace
    unfold fieldOf
    by_cases ht : type = c!"Delimited"
    · rw [if_pos ht] at hplace ⊢
      rw [h1, h2]
      simp only [hplace.1, hplace.2]
    · rw [if_neg ht] at hplace ⊢
      rw [h1, h2, part_nat M.floats (by decide) h hp (no_field (by decide)) (by decide) hplace.1, natOf_int,
        part_nat M.floats (by decide) h hp (no_field (by decide)) (by decide) hplace.2, natOf_int]
  · rcases hf.format with h1 | ⟨c, h1, s, h2, h3⟩
    · left
      rw [lookup_dictP M.floats (by decide) h hp (no_field (by decide)), h1]
      rfl
    · right
      refine ⟨s, ?_⟩
      rw [part_lookup M.floats (by decide) h hp (no_field (by decide)) h1 h2, if_neg (by decide), castText_wordy h3]

/-- a group that is described is read -/
theorem group_ok (M : Machine) {type : Str} {x : Doc} (h : ∀ e ∈ elements x, NamedAs e) {g : Pds4Table.Group}
    (hg : GroupDoc type x g) : ∃ d, loadGroup M.floats type (C x) = .ok d ∧ groupOf type d = some g := by
  have hp := hg.plain
  have hplace := hg.place
  have h1 : groupName (dictP M.floats c!"group_" x) = some g.name := by
    have hname := hg.name
    unfold groupName
    cases hn : g.name with
    | none =>
      rw [hn] at hname
      simp only at hname
      rw [lookup_dictP M.floats (by decide) h hp (no_group (by decide)), hname]
      rfl
    | some s =>
      rw [hn] at hname
      simp only at hname
      obtain ⟨c, h1, h2⟩ := hname
      rw [part_lookup M.floats (by decide) h hp (no_group (by decide)) h1 h2, if_pos (by decide)]
  refine ⟨dictP M.floats c!"group_" x, ?_, ?_⟩
  · unfold loadGroup
    rw [loadPart_eq M.floats _ x hg.container]
    simp only
    rw [if_pos]
    by_cases ht : type = c!"Delimited"
    · rw [if_pos ht, hasKeysP M.floats (by decide) h hp]
      · intro k hk
        simp only [List.mem_cons, List.not_mem_nil, or_false] at hk
        rcases hk with rfl | rfl | rfl
        · exact part_some hg.repetitions
        · exact hg.fields
        · exact hg.groups
      · intro k hk
        simp only [List.mem_cons, List.not_mem_nil, or_false] at hk
        rcases hk with rfl | rfl | rfl <;> exact no_group (by decide)
    · rw [if_neg ht] at hplace
      rw [if_neg ht, hasKeysP M.floats (by decide) h hp]
      · intro k hk
        simp only [List.mem_cons, List.not_mem_nil, or_false] at hk
        rcases hk with rfl | rfl | rfl | rfl | rfl
        · exact part_some hg.repetitions
        · exact hg.fields
        · exact hg.groups
        · exact part_some hplace.1
        · exact part_some hplace.2
      · intro k hk
        simp only [List.mem_cons, List.not_mem_nil, or_false] at hk
        rcases hk with rfl | rfl | rfl | rfl | rfl <;> exact no_group (by decide)
  · have h2 := part_nat M.floats (by decide) h hp (no_group (by decide)) (by decide) hg.repetitions
    obtain ⟨name, location, length, reps⟩ := g
    simp only at h1 h2 hplace
    unfold groupOf
    by_cases ht : type = c!"Delimited"
    · rw [if_pos ht] at hplace ⊢
      rw [h1, h2, natOf_int]
      simp only [hplace.1, hplace.2]
    · rw [if_neg ht] at hplace ⊢
      rw [h1, h2, natOf_int, part_nat M.floats (by decide) h hp (no_group (by decide)) (by decide) hplace.1, natOf_int,
        part_nat M.floats (by decide) h hp (no_group (by decide)) (by decide) hplace.2, natOf_int]

theorem rawOf_eq (E : Xml.Floats ℚ) (type : Str) (x : Doc) : rawOf E type (C x) = rawL E type ((kids x).map C) := by
  rw [← C_kids]
  cases C x with
  | mk t a s ks => rw [rawOf]; rfl

theorem tags_differ (type : Str) : c!"Group_Field_" ++ type ≠ c!"Field_" ++ type := by
  intro h
  have := congrArg List.length h
  simp at this
  omega

/-- the fields and groups of a record or group -/
theorem contents_ok (M : Machine) {type : Str} {xs : List Doc} {f : Pds4Table.Forest} (hc : Contents M type xs f) :
    (∀ x ∈ xs, ∀ e ∈ elements x, NamedAs e) → ∃ raw, rawL M.floats type (xs.map C) = .ok raw ∧ checkFormats raw = .ok () ∧ forestOf type raw = some f := by
  induction hc with
  | nil => intro _; exact ⟨.nil, rfl, rfl, rfl⟩
  | other h1 h2 h3 ih =>
    rename_i x xs rest
    intro hn
    obtain ⟨raw, r1, r2, r3⟩ := ih (fun y hy => hn y (List.mem_cons_of_mem _ hy))
    refine ⟨raw, ?_, r2, r3⟩
    rw [List.map_cons, rawL, C_tag (named_self (hn x List.mem_cons_self)), if_neg h1, if_neg h2, r1]
  | field h1 h2 h3 ih =>
    rename_i x f xs rest
    intro hn
    obtain ⟨raw, r1, r2, r3⟩ := ih (fun y hy => hn y (List.mem_cons_of_mem _ hy))
    obtain ⟨d, d1, d2, d6⟩ := field_ok M (hn x List.mem_cons_self) h2
    refine ⟨.field d raw, ?_, ?_, ?_⟩
    · rw [List.map_cons, rawL, C_tag (named_self (hn x List.mem_cons_self)), if_pos h1, d1]
      simp only
      rw [r1]
    · rcases d6 with d6 | ⟨s, d6⟩ <;> simp only [checkFormats, d6, r2]
    · simp only [forestOf, d2, r3]
  | group h1 h2 h3 h4 ih1 ih2 =>
    rename_i x g xs inner rest
    intro hn
    have hx := hn x List.mem_cons_self
    obtain ⟨raw, r1, r2, r3⟩ := ih2 (fun y hy => hn y (List.mem_cons_of_mem _ hy))
    obtain ⟨raw', s1, s2, s3⟩ := ih1 (fun y hy => named_kid hx hy)
    obtain ⟨d, d1, d2⟩ := group_ok M hx h2
    refine ⟨.group d raw' raw, ?_, ?_, ?_⟩
    · rw [List.map_cons, rawL, C_tag (named_self hx), if_neg (by rw [h1]; exact tags_differ type), if_pos h1, d1]
      simp only
      rw [rawOf_eq, s1]
      simp only
      rw [r1]
    · simp only [checkFormats, s2, r2]
    · simp only [forestOf, d2, s3, r3]

/-! ### tables -/

theorem filter_named {x : Doc} (h : ∀ e ∈ elements x, NamedAs e) (n : Str) :
    (kidsOf (C x)).filter (fun a => tagOf a = n) = (named n x).map C := by
  rw [C_kids]
  unfold named
  have hk : ∀ k ∈ kids x, NamedAs k := fun k hk => named_self (named_kid h hk)
  generalize kids x = ks at hk
  induction ks with
  | nil => rfl
  | cons k ks ih =>
    have ih := ih (fun k' h' => hk k' (List.mem_cons_of_mem _ h'))
    have h1 := C_tag (hk k List.mem_cons_self)
    rw [List.map_cons]
    by_cases ht : tag k = n
    · rw [List.filter_cons_of_pos (by simpa [h1] using ht), List.filter_cons_of_pos (by simpa using ht), List.map_cons, ih]
    · rw [List.filter_cons_of_neg (by simpa [h1] using ht), List.filter_cons_of_neg (by simpa using ht), ih]

theorem find_named {x : Doc} (h : ∀ e ∈ elements x, NamedAs e) {n : Str} {c : Doc} (hc : named n x = [c]) :
    (kidsOf (C x)).find? (fun a => tagOf a = n) = some (C c) := by
  rw [← List.head?_filter, filter_named h, hc]
  rfl

theorem checkCount_ok {r : Doc} (h : ∀ e ∈ elements r, NamedAs e) {n : Str} (hf : Field r n (fun c => ∃ m, SaysNat c m)) :
    checkCount n (C r) = .ok () := by
  obtain ⟨c, h1, m, s, h2, h3⟩ := hf
  obtain ⟨t, a, h4, -⟩ := C_says h2
  have h5 : Literal.pyInt s 10 = some (m : Int) := Literal.pyInt_ok (b := 10) (Or.inl ⟨m, h3, rfl⟩) (by omega) (by omega)
  unfold checkCount
  rw [find_named h h1, h4]
  simp only [textOf, Option.getD_some, h5]

/-- the name of the record of a table -/
theorem recordTag_only {x : Doc} (h : ∀ e ∈ elements x, NamedAs e) {t : Str} (ht : c!"Record_" <:+: t) {r : Doc} (hr : r ∈ named t x)
    (ho : ∀ k ∈ kids x, c!"Record_" <:+: tag k → tag k = t) : recordTag (C x) = some t := by
  have hk : ∀ k ∈ kids x, NamedAs k := fun k hk => named_self (named_kid h hk)
  have hmem : t ∈ ((kids x).map C).map tagOf := by
    rw [List.map_map, List.mem_map]
    exact ⟨r, (mem_named hr).1, by rw [Function.comp_apply, C_tag (hk r (mem_named hr).1), (mem_named hr).2]⟩
  unfold recordTag
  rw [C_kids]
  cases hf : (((kids x).map C).map tagOf).find? (fun t => contains t c!"Record_") with
  | none =>
    rw [List.find?_eq_none] at hf
    exact absurd ((Datatypes.contains_iff _ _).mpr ht) (hf t hmem)
  | some u =>
    have h1 := List.find?_some hf
    have h2 := List.mem_of_find?_eq_some hf
    rw [List.map_map, List.mem_map] at h2
    obtain ⟨k, k1, rfl⟩ := h2
    rw [Function.comp_apply, C_tag (hk k k1)] at h1 ⊢
    rw [ho k k1 ((Datatypes.contains_iff _ _).mp h1)]

theorem record_type (b : Bool) : c!"Record_" <:+: c!"Record_" ++ typeName b ∧ lastPart (c!"Record_" ++ typeName b) = typeName b ∧
    typeName b ∈ [c!"Character", c!"Binary", c!"Delimited"] ∧ typeName b ≠ c!"Delimited" := by
  refine ⟨(List.prefix_append _ _).isInfix, ?_, ?_, ?_⟩ <;> cases b <;> decide

theorem not_sampled {x : Doc} (h : ∀ e ∈ elements x, NamedAs e) (hu : named c!"Uniformly_Sampled" x = []) : sampled (C x) = false := by
  have := filter_named h c!"Uniformly_Sampled"
  rw [hu, List.map_nil, List.filter_eq_nil_iff] at this
  unfold sampled
  rw [List.any_eq_false]
  exact this

/-- a table that is described is read with its description -/
theorem loadTable_eq (M : Machine) {x : Doc} (h : ∀ e ∈ elements x, NamedAs e) {l : Pds4Table.Label} (hd : TableDoc M x l) (file : Bytes) :
    loadTable M (some file) (C x) (dictOf M.floats x) = some (Pds4Table.readTable M.env l file) := by
  obtain ⟨r, r1, r2, r3, r4, r5, r6⟩ := hd.record
  obtain ⟨t1, t2, t3, t4⟩ := record_type l.binary
  have hr : r ∈ named (c!"Record_" ++ typeName l.binary) x := by rw [r1]; exact List.mem_cons_self
  have hnr := named_kid h (mem_named hr).1
  obtain ⟨raw, w1, w2, w3⟩ := contents_ok M r6 (fun y hy => named_kid hnr hy)
  have hparts : tableParts M.floats (typeName l.binary) (C r) = .ok raw := by
    unfold tableParts
    rw [rawOf_eq, w1]
    simp only
    rw [checkCount_ok hnr r4, checkCount_ok hnr r5]
    simp only [w2]
  have hlabel : tableLabel (C x) (dictOf M.floats x) (dictOf M.floats r) (typeName l.binary) raw = some l := by
    have hu := not_sampled h hd.no_uniform.1
    unfold tableLabel
    rw [hu, natOf_field M.floats h hd.offset (by decide), natOf_field M.floats h hd.records (by decide),
      natOf_field M.floats hnr r3 (by decide), w3, C_tag (named_self h), hd.tag]
    obtain ⟨b, o, n, m, u, body⟩ := l
    have hu' : u = [] := hd.no_uniform.2
    subst hu'
    cases b <;> rfl
  unfold loadTable
  rw [recordTag_only h t1 hr hd.only]
  simp only
  rw [t2, if_neg (not_not.mpr t3), find_named h r1, lookup_one M.floats h r1, val_container M.floats r r2]
  simp only
  rw [hparts]
  simp only
  unfold loadRecord
  rw [if_neg t4, hlabel]

/-- names below a structure -/
theorem structure_at {root : Doc} {ds : List Described} (h : Valid root ds) {before : List Described}
    {area x : Doc} (hx : (structuresIn root)[before.length]? = some (area, x)) : ∀ e ∈ elements x, NamedAs e := by
  have hmem := List.mem_of_getElem? hx
  unfold structuresIn at hmem
  obtain ⟨a, a1, a2⟩ := List.mem_flatMap.mp hmem
  rw [structuresOf_eq] at a2
  obtain ⟨y, y1, y2⟩ := List.mem_map.mp a2
  cases y2
  exact named_kid (named_kid h.names (areasIn_kid a1)) (List.mem_of_mem_filter y1)

/-! ### C127 -/

/-- **C127.** For every valid label, a Table_Character or Table_Binary whose name no later structure has, and that the label describes by
`l`, is read from the file of its file area (relative to the label) as the columns of its fields in the order of the label: for each
field and each repetition of its groups a column with the values of all records. -/
theorem C127_table (M : Machine) (dir filename : Str) (root : Doc) (ds : List Described) (h : Valid root ds)
    (files : Str → Option Bytes) (before : List Described) (d : Described) (rest : List Described) (hds : ds = before ++ d :: rest)
    (area x : Doc) (hx : (structuresIn root)[before.length]? = some (area, x)) (hk : d.kind = .table)
    (hl : nameOf before d ≠ c!"label") (hr : ∀ mid e last, rest = mid ++ e :: last → nameOf (before ++ d :: mid) e ≠ nameOf before d)
    (ho : Ordinary filename (nameOf before d)) (path : Str) (hp : Located dir d.file path) (hf : ¬ FitsName path)
    (l : Pds4Table.Label) (hd : TableDoc M x l) (hn : Pds4Table.Spec.NamedTable l)
    (file : Bytes) (hfile : files path = some file) (hok : Pds4Table.Spec.Readable M.env l file) :
    ∃ blocks, read M dir filename (etree root) files (nameOf before d) = some (.ok (.table blocks.flatten)) ∧
      List.Forall₂ (Pds4Table.Spec.Block M.env l file) (Pds4Table.Spec.leaves [] l.body) blocks := by
  obtain ⟨blocks, b1, b2⟩ := Pds4Table.C72_table M.env l file hok hn
  refine ⟨blocks, ?_, b2⟩
  rw [read_eq M dir filename h files hds hx hl hr ho hp hf, hk, hfile]
  simp only
  rw [loadTable_eq M (structure_at h hx) hd, b1, hd.no_uniform.2]
  rfl

/-! ### C128 -/

/-- **C128 (a missing element).** If one table of the label has no record, no `offset` or no `records`, nothing of the product can be
read, whatever else is in the label. -/
theorem C128_missing (M : Machine) (dir filename : Str) (root : Doc) (files : Str → Option Bytes) (name : Str)
    (h : ∀ e ∈ elements root, NamedAs e) (a x : Doc) (hx : (a, x) ∈ structuresIn root) (hk : HasKind (tag x) .table) (hc : Container x)
    (hno : (∀ k ∈ kids x, ¬ c!"Record_" <:+: tag k) ∨ named c!"offset" x = [] ∨ named c!"records" x = []) :
    ∃ e, read M dir filename (etree root) files name = some (.error e) := by
  refine read_error M dir filename _ files name (open_error_structure M dir h hx hk hc ?_)
  have hn := structure_named h hx
  simp only [check]
  unfold checkTable
  cases hr : recordTag (C x) with
  | none => exact ⟨_, rfl⟩
  | some r =>
    simp only
    rcases hno with hno | hno
    · exfalso
      unfold recordTag at hr
      have h1 := List.find?_some hr
      have h2 := List.mem_of_find?_eq_some hr
      rw [C_kids, List.map_map, List.mem_map] at h2
      obtain ⟨k, k1, rfl⟩ := h2
      rw [Function.comp_apply, C_tag (named_self (named_kid hn k1))] at h1
      exact hno k k1 ((Datatypes.contains_iff _ _).mp h1)
    · rw [if_pos]
      · exact ⟨_, rfl⟩
      · rw [Bool.not_eq_true', ← Bool.not_eq_true, hasKeys_iff M.floats hn]
        intro hall
        rcases hno with hno | hno
        · exact hall c!"offset" (by split <;> simp) hno
        · exact hall c!"records" (by split <;> simp) hno

/-- **C128 (an incomplete record).** The same if the record of one table has no `fields` or no `groups`, or is one of fixed length and has
no `record_length`. -/
theorem C128_record (M : Machine) (dir filename : Str) (root : Doc) (files : Str → Option Bytes) (name : Str)
    (h : ∀ e ∈ elements root, NamedAs e) (a x : Doc) (hx : (a, x) ∈ structuresIn root) (hk : HasKind (tag x) .table) (hc : Container x)
    (t : Str) (ht : c!"Record_" <:+: t) (hone : ∀ k ∈ kids x, c!"Record_" <:+: tag k → tag k = t)
    (hno : Field x t (fun r => Container r ∧ (named c!"fields" r = [] ∨ named c!"groups" r = [] ∨
      (t = c!"Record_Character" ∨ t = c!"Record_Binary") ∧ named c!"record_length" r = []))) :
    ∃ e, read M dir filename (etree root) files name = some (.error e) := by
  refine read_error M dir filename _ files name (open_error_structure M dir h hx hk hc ?_)
  have hn := structure_named h hx
  obtain ⟨r, r1, r2, r3⟩ := hno
  have hr : r ∈ named t x := by rw [r1]; exact List.mem_cons_self
  have hnr := named_kid hn (mem_named hr).1
  simp only [check]
  unfold checkTable
  rw [recordTag_only hn ht hr hone]
  simp only
  by_cases hkk : (!hasKeys (if delimited t then [c!"offset", c!"records", c!"record_delimiter", c!"field_delimiter"] else [c!"offset", c!"records"])
    (dictOf M.floats x)) = true
  · rw [if_pos hkk]
    exact ⟨_, rfl⟩
  · rw [if_neg hkk, lookup_one M.floats hn r1, val_container M.floats r r2]
    simp only
    rw [if_neg]
    · exact ⟨_, rfl⟩
    · rw [hasKeys_iff M.floats hnr]
      intro hall
      rcases r3 with r3 | r3 | ⟨ht, r3⟩
      · exact hall c!"fields" (by split <;> simp) r3
      · exact hall c!"groups" (by split <;> simp) r3
      · refine hall c!"record_length" ?_ r3
        have hd : delimited t = false := by rcases ht with rfl | rfl <;> decide
        rw [hd]
        simp

/-- the element spoils its table -/
def Spoils (E : Xml.Floats ℚ) (type : Str) (x : Doc) : Prop := ∀ raw, rawL E type [C x] = .ok raw → ∃ e, checkFormats raw = .error e

theorem spoils_list {E : Xml.Floats ℚ} {type : Str} {x : Doc} (h : Spoils E type x) {xs : List Doc} (hx : x ∈ xs) :
    ∀ raw, rawL E type (xs.map C) = .ok raw → ∃ e, checkFormats raw = .error e := by
  induction xs with
  | nil => cases hx
  | cons y ys ih =>
    intro raw hraw
    rw [List.map_cons, rawL] at hraw
    rcases List.mem_cons.mp hx with rfl | hx
    · unfold Spoils at h
      simp only [rawL] at h
      split at hraw
      · rename_i h1
        rw [if_pos h1] at h
        cases hl : loadField E type (C x) with
        | error e => rw [hl] at hraw; cases hraw
        | ok d =>
          rw [hl] at hraw h
          simp only at hraw h
          cases hr : rawL E type (ys.map C) with
          | error e => rw [hr] at hraw; cases hraw
          | ok rest =>
            rw [hr] at hraw
            cases hraw
            obtain ⟨e, he⟩ := h _ rfl
            simp only [checkFormats] at he ⊢
            split at he
            · cases he
            · cases he
            · exact ⟨_, rfl⟩
      · rename_i h1
        rw [if_neg h1] at h
        split at hraw
        · rename_i h2
          rw [if_pos h2] at h
          cases hl : loadGroup E type (C x) with
          | error e => rw [hl] at hraw; cases hraw
          | ok d =>
            rw [hl] at hraw h
            simp only at hraw h
            cases hi : rawOf E type (C x) with
            | error e => rw [hi] at hraw; cases hraw
            | ok inner =>
              rw [hi] at hraw h
              simp only at hraw h
              cases hr : rawL E type (ys.map C) with
              | error e => rw [hr] at hraw; cases hraw
              | ok rest =>
                rw [hr] at hraw
                cases hraw
                obtain ⟨e, he⟩ := h _ rfl
                simp only [checkFormats] at he ⊢
                cases hc : checkFormats inner with
                | error e' => exact ⟨e', rfl⟩
                | ok u => rw [hc] at he; cases he
        · rename_i h2
          rw [if_neg h2] at h
          obtain ⟨e, he⟩ := h _ rfl
          cases he
    · have ih := ih hx
      split at hraw
      · cases hl : loadField E type (C y) with
        | error e => rw [hl] at hraw; cases hraw
        | ok d =>
          rw [hl] at hraw
          simp only at hraw
          cases hr : rawL E type (ys.map C) with
          | error e => rw [hr] at hraw; cases hraw
          | ok rest =>
            rw [hr] at hraw
            cases hraw
            obtain ⟨e, he⟩ := ih rest hr
            simp only [checkFormats]
            split
            · exact ⟨e, he⟩
            · exact ⟨e, he⟩
            · exact ⟨_, rfl⟩
      · split at hraw
        · cases hl : loadGroup E type (C y) with
          | error e => rw [hl] at hraw; cases hraw
          | ok d =>
            rw [hl] at hraw
            simp only at hraw
            cases hi : rawOf E type (C y) with
            | error e => rw [hi] at hraw; cases hraw
            | ok inner =>
              rw [hi] at hraw
              simp only at hraw
              cases hr : rawL E type (ys.map C) with
              | error e => rw [hr] at hraw; cases hraw
              | ok rest =>
                rw [hr] at hraw
                cases hraw
                obtain ⟨e, he⟩ := ih rest hr
                simp only [checkFormats]
                cases checkFormats inner with
                | error e' => exact ⟨e', rfl⟩
                | ok u => exact ⟨e, he⟩
        · exact ih raw hraw

theorem spoils_inside {E : Xml.Floats ℚ} {type : Str} {x r : Doc} (h : Spoils E type x) (hi : Inside type r x)
    (hn : ∀ e ∈ elements r, NamedAs e) : ∀ raw, rawOf E type (C r) = .ok raw → ∃ e, checkFormats raw = .error e := by
  induction hi with
  | here hx =>
    intro raw hraw
    rw [rawOf_eq] at hraw
    exact spoils_list h hx raw hraw
  | deeper hg ht hin ih =>
    rename_i r g x
    have ih := ih h (named_kid hn hg)
    intro raw hraw
    rw [rawOf_eq] at hraw
    refine spoils_list (x := g) ?_ hg raw hraw
    intro raw' hraw'
    rw [rawL, C_tag (named_self (named_kid hn hg)), ht, if_neg (tags_differ type), if_pos rfl] at hraw'
    cases hl : loadGroup E type (C g) with
    | error e => rw [hl] at hraw'; cases hraw'
    | ok d =>
      rw [hl] at hraw'
      simp only at hraw'
      cases hin' : rawOf E type (C g) with
      | error e => rw [hin'] at hraw'; cases hraw'
      | ok inner =>
        rw [hin'] at hraw'
        simp only [rawL] at hraw'
        cases hraw'
        obtain ⟨e, he⟩ := ih inner hin'
        simp only [checkFormats, he]
        exact ⟨e, rfl⟩

/-- **C128 (a field).** A table with a field, at any depth, that has no `name` or `data_type`, or (if it is not delimited) no `field_location`
or `field_length`, or whose `field_format` is a number, cannot be read, whatever the rest of the table and its file are. -/
theorem C128_field (M : Machine) (dir filename : Str) (root : Doc) (ds : List Described) (h : Valid root ds)
    (files : Str → Option Bytes) (before : List Described) (d : Described) (rest : List Described) (hds : ds = before ++ d :: rest)
    (area x : Doc) (hx : (structuresIn root)[before.length]? = some (area, x)) (hk : d.kind = .table)
    (hl : nameOf before d ≠ c!"label") (hr : ∀ mid e last, rest = mid ++ e :: last → nameOf (before ++ d :: mid) e ≠ nameOf before d)
    (ho : Ordinary filename (nameOf before d)) (path : Str) (hp : Located dir d.file path) (hf : ¬ FitsName path)
    (type : Str) (ht : type ∈ [c!"Character", c!"Binary", c!"Delimited"]) (hone : ∀ k ∈ kids x, c!"Record_" <:+: tag k → tag k = c!"Record_" ++ type)
    (hrec : Field x (c!"Record_" ++ type) (fun r => Container r ∧ ∃ f, Inside type r f ∧
      tag f = c!"Field_" ++ type ∧ Container f ∧ PlainNames c!"field_" f ∧
      ((∃ key, (key ∈ [c!"name", c!"data_type"] ∨ type ≠ c!"Delimited" ∧ key ∈ [c!"location", c!"length"]) ∧ called c!"field_" key f = []) ∨
        Part c!"field_" f c!"format" (fun c => ∃ n, SaysNat c n)))) :
    ∃ e, read M dir filename (etree root) files (nameOf before d) = some (.error e) := by
  have hn := structure_at h hx
  have t1 : c!"Record_" <:+: c!"Record_" ++ type := (List.prefix_append _ _).isInfix
  have t2 : lastPart (c!"Record_" ++ type) = type := by
    simp only [List.mem_cons, List.not_mem_nil, or_false] at ht
    rcases ht with rfl | rfl | rfl <;> decide
  obtain ⟨r, r1, r2, f, f1, f2, f3, f4, f5⟩ := hrec
  have hmr : r ∈ named (c!"Record_" ++ type) x := by rw [r1]; exact List.mem_cons_self
  have hnr := named_kid hn (mem_named hmr).1
  have hin : ∀ {r : Doc}, (∀ e ∈ elements r, NamedAs e) → Inside type r f → ∀ e ∈ elements f, NamedAs e := by
    intro r hnr hi
    clear f1 f2 f3 f4 f5
    induction hi with
    | here hx => exact named_kid hnr hx
    | deeper hg _ _ ih => exact ih (named_kid hnr hg)
  have hnf := hin hnr f1
  have hsp : Spoils M.floats type f := by
    intro raw hraw
    rw [rawL, C_tag (named_self hnf), f2, if_pos rfl] at hraw
    unfold loadField at hraw
    rw [loadPart_eq M.floats _ f f3] at hraw
    simp only at hraw
    generalize hks : (if type = c!"Delimited" then [c!"name", c!"data_type"] else [c!"name", c!"location", c!"length", c!"data_type"]) = ks at hraw
    split at hraw
    · cases hraw
    · rename_i d' hd'
      split at hd'
      · rename_i hkeys
        cases hd'
        simp only [rawL] at hraw
        cases hraw
        rcases f5 with ⟨key, k1, k2⟩ | ⟨c, c1, n, s, c2, c3⟩
        · subst hks
          have hk : ∀ k ∈ (if type = c!"Delimited" then [c!"name", c!"data_type"] else [c!"name", c!"location", c!"length", c!"data_type"]),
              ¬ c!"field_" <:+: k := by
            intro k hk
            have hk : k = c!"name" ∨ k = c!"location" ∨ k = c!"length" ∨ k = c!"data_type" := by
              split at hk <;> simp only [List.mem_cons, List.not_mem_nil, or_false] at hk <;> tauto
            rcases hk with rfl | rfl | rfl | rfl <;> exact no_field (by decide)
          rw [hasKeysP M.floats (by decide) hnf f4 hk] at hkeys
          refine absurd k2 (hkeys key ?_)
          by_cases hd : type = c!"Delimited"
          · rw [if_pos hd]
            exact k1.elim id (fun h => absurd hd h.1)
          · rw [if_neg hd]
            rcases k1 with k1 | ⟨-, k1⟩ <;> simp only [List.mem_cons, List.not_mem_nil, or_false] at k1 ⊢ <;> tauto
        · have hv := part_nat M.floats (pre := c!"field_") (by decide) hnf f4 (no_field (by decide)) (by decide) ⟨c, c1, s, c2, c3⟩
          simp only [checkFormats, hv]
          exact ⟨_, rfl⟩
      · cases hd'
  have hparts : ∃ e, tableParts M.floats type (C r) = .error e := by
    unfold tableParts
    cases hraw : rawOf M.floats type (C r) with
    | error e => exact ⟨e, rfl⟩
    | ok raw =>
      simp only
      obtain ⟨e, he⟩ := spoils_inside hsp f1 hnr raw hraw
      cases checkCount c!"fields" (C r) with
      | error e' => exact ⟨e', rfl⟩
      | ok u => cases checkCount c!"groups" (C r) with
        | error e' => exact ⟨e', rfl⟩
        | ok u' => simp only [he]; exact ⟨e, rfl⟩
  obtain ⟨e, he⟩ := hparts
  rw [read_eq M dir filename h files hds hx hl hr ho hp hf, hk]
  simp only
  unfold loadTable
  rw [recordTag_only hn t1 hmr hone]
  simp only
  rw [t2, if_neg (not_not.mpr ht), find_named hn r1, lookup_one M.floats hn r1, val_container M.floats r r2]
  cases files path with
  | none => exact ⟨_, rfl⟩
  | some file =>
    simp only
    rw [he]
    exact ⟨e, rfl⟩

/-! ### an example -/

def fieldDoc (name location length type : Str) : Doc :=
  el c!"Field_Binary" [tx c!"name" name, tx c!"field_location" location, tx c!"data_type" type, tx c!"field_length" length,
    tx c!"field_format" c!"%2s"]

def groupDoc : Doc :=
  el c!"Group_Field_Binary" [tx c!"repetitions" c!"2", tx c!"fields" c!"1", tx c!"groups" c!"0", tx c!"group_location" c!"4",
    tx c!"group_length" c!"4", fieldDoc c!"V" c!"1" c!"2" c!"UnsignedMSB2"]

def recordDoc : Doc :=
  el c!"Record_Binary" [tx c!"fields" c!"2", tx c!"groups" c!"1", tx c!"record_length" c!"9",
    fieldDoc c!"ID" c!"1" c!"3" c!"ASCII_Integer", groupDoc, fieldDoc c!"T" c!"8" c!"2" c!"UTF8_String"]

/-- a table with this record -/
def tableWith (r : Doc) : Doc := el c!"Table_Binary" [tx c!"name" c!"my table", tx c!"offset" c!"1", tx c!"records" c!"2", r]

/-- a label with this table -/
def rootWith (x : Doc) : Doc :=
  el c!"Product_Observational" [el c!"File_Area_Observational" [el c!"File" [tx c!"file_name" c!"table.dat"], x]]

/-- the table of Props/Pds4Table.lean in XML -/
def tableDoc : Doc := tableWith recordDoc

def tableArea : Doc := el c!"File_Area_Observational" [el c!"File" [tx c!"file_name" c!"table.dat"], tableDoc]

def tableRoot : Doc := rootWith tableDoc

def tableMachine : Machine := { demoMachine with env := Pds4Table.demoEnv }

def tableLabel0 : Pds4Table.Label := { Pds4Table.demo with uniform := [] }

theorem digit_says (name : Str) (c : Char) (d : Nat) (h : Literal.Spec.DigitOf c d) (hd : d < 10) (hs : ¬ (strip [c]).isEmpty = true)
    (ht : Xml.tidy [c] = [c]) : SaysNat (tx name [c]) d := saysNat_tx name [c] [c] d hs ht (digit_numeral c d h hd)

theorem called_field (pre n name location length type : Str) : called pre n (fieldDoc name location length type) =
    ([tx c!"name" name, tx c!"field_location" location, tx c!"data_type" type, tx c!"field_length" length,
      tx c!"field_format" c!"%2s"].filter (fun k => decide (tag k = n ∨ tag k = pre ++ n))) := by
  unfold called
  congr

theorem called_group (pre n : Str) : called pre n groupDoc =
    ([tx c!"repetitions" c!"2", tx c!"fields" c!"1", tx c!"groups" c!"0", tx c!"group_location" c!"4",
      tx c!"group_length" c!"4", fieldDoc c!"V" c!"1" c!"2" c!"UnsignedMSB2"].filter (fun k => decide (tag k = n ∨ tag k = pre ++ n))) := by
  unfold called
  congr

theorem tag_field (name location length type : Str) : tag (fieldDoc name location length type) = c!"Field_Binary" := tag_el _ _

theorem plain_of {pre : Str} {ks : List Doc} {name : Str} (h : ks.Forall (fun k => contains (tag k) pre = false ∨
    ∃ n, tag k = pre ++ n ∧ contains n pre = false)) : PlainNames pre (el name ks) := by
  intro k hk
  rcases List.forall_iff_forall_mem.mp h k hk with h | ⟨n, h1, h2⟩
  · left; rw [← Datatypes.contains_iff, h]; decide
  · right; exact ⟨n, h1, by rw [← Datatypes.contains_iff, h2]; decide⟩

theorem fieldDoc_ok (name type : Str) (a b : Char) (i j : Nat) (ha : Literal.Spec.DigitOf a i) (hb : Literal.Spec.DigitOf b j) (hi : i < 10)
    (hj : j < 10) (ha' : ¬ (strip [a]).isEmpty = true ∧ Xml.tidy [a] = [a]) (hb' : ¬ (strip [b]).isEmpty = true ∧ Xml.tidy [b] = [b])
    (hn : ¬ (strip name).isEmpty = true ∧ Xml.tidy name = name) (ht : ¬ (strip type).isEmpty = true ∧ Xml.tidy type = type)
    (hw : ∃ c ∈ type, c.isAlpha = true ∨ c = '%') :
    FieldDoc tableMachine c!"Binary" (fieldDoc name [a] [b] type) ⟨name, i, j, type⟩ where
  container := container_el _ _ (by simp)
  plain := by
    refine plain_of ⟨.inl ?_, .inr ⟨c!"location", ?_, by decide⟩, .inl ?_, .inr ⟨c!"length", ?_, by decide⟩, .inr ⟨c!"format", ?_, by decide⟩⟩
    · rw [tag_tx]; decide
    · rw [tag_tx]; rfl
    · rw [tag_tx]; decide
    · rw [tag_tx]; rfl
    · rw [tag_tx]; rfl
  name := ⟨tx c!"name" name, by rw [called_field]; simp [List.filter_cons, tag_tx], says_tx _ _ _ hn.1 hn.2⟩
  place := by
    rw [if_neg (by decide)]
    exact ⟨⟨tx c!"field_location" [a], by rw [called_field]; simp [List.filter_cons, tag_tx], digit_says _ _ _ ha hi ha'.1 ha'.2⟩,
      ⟨tx c!"field_length" [b], by rw [called_field]; simp [List.filter_cons, tag_tx], digit_says _ _ _ hb hj hb'.1 hb'.2⟩⟩
  type := ⟨tx c!"data_type" type, by rw [called_field]; simp [List.filter_cons, tag_tx], says_tx _ _ _ ht.1 ht.2⟩
  wordy := ⟨hw, rfl⟩
  format := .inr ⟨tx c!"field_format" c!"%2s", by rw [called_field]; simp [List.filter_cons, tag_tx], c!"%2s",
    says_tx _ _ _ (by decide) (by decide), ⟨'%', by decide, .inr rfl⟩, rfl⟩

theorem groupDoc_ok : GroupDoc c!"Binary" groupDoc ⟨none, 4, 4, 2⟩ where
  container := container_el _ _ (by simp)
  plain := by
    refine plain_of ⟨.inl ?_, .inl ?_, .inl ?_, .inr ⟨c!"location", ?_, by decide⟩, .inr ⟨c!"length", ?_, by decide⟩, .inl ?_⟩
    · rw [tag_tx]; decide
    · rw [tag_tx]; decide
    · rw [tag_tx]; decide
    · rw [tag_tx]; rfl
    · rw [tag_tx]; rfl
    · rw [tag_field]; decide
  name := by simp [called_group, List.filter_cons, tag_tx, tag_field]
  place := by
    rw [if_neg (by decide)]
    exact ⟨⟨tx c!"group_location" c!"4", by simp [called_group, List.filter_cons, tag_tx, tag_field],
      digit_says _ _ _ (.inl ⟨by decide, by decide⟩) (by decide) (by decide) (by decide)⟩,
      ⟨tx c!"group_length" c!"4", by simp [called_group, List.filter_cons, tag_tx, tag_field],
        digit_says _ _ _ (.inl ⟨by decide, by decide⟩) (by decide) (by decide) (by decide)⟩⟩
  repetitions := ⟨tx c!"repetitions" c!"2", by simp [called_group, List.filter_cons, tag_tx, tag_field],
    digit_says _ _ _ (.inl ⟨by decide, by decide⟩) (by decide) (by decide) (by decide)⟩
  fields := by simp [called_group, List.filter_cons, tag_tx, tag_field]
  groups := by simp [called_group, List.filter_cons, tag_tx, tag_field]

theorem named_record (n : Str) : named n recordDoc = ([tx c!"fields" c!"2", tx c!"groups" c!"1", tx c!"record_length" c!"9",
    fieldDoc c!"ID" c!"1" c!"3" c!"ASCII_Integer", groupDoc, fieldDoc c!"T" c!"8" c!"2" c!"UTF8_String"].filter (fun k => decide (tag k = n))) := by
  unfold named
  congr

theorem named_table (n : Str) : named n tableDoc = ([tx c!"name" c!"my table", tx c!"offset" c!"1", tx c!"records" c!"2", recordDoc].filter
    (fun k => decide (tag k = n))) := by
  unfold named
  congr

theorem tag_record : tag recordDoc = c!"Record_Binary" := tag_el _ _
theorem tag_group : tag groupDoc = c!"Group_Field_Binary" := tag_el _ _
theorem tag_table : tag tableDoc = c!"Table_Binary" := tag_el _ _

theorem tableDoc_ok : TableDoc tableMachine tableDoc tableLabel0 where
  tag := tag_table
  offset := ⟨tx c!"offset" c!"1", by simp [named_table, List.filter_cons, tag_tx, tag_record],
    digit_says _ _ _ (.inl ⟨by decide, by decide⟩) (by decide) (by decide) (by decide)⟩
  records := ⟨tx c!"records" c!"2", by simp [named_table, List.filter_cons, tag_tx, tag_record],
    digit_says _ _ _ (.inl ⟨by decide, by decide⟩) (by decide) (by decide) (by decide)⟩
  record := by
    refine ⟨recordDoc, ?_, container_el _ _ (by simp),
      ⟨tx c!"record_length" c!"9", by simp [named_record, List.filter_cons, tag_tx, tag_field, tag_group],
        digit_says _ _ _ (.inl ⟨by decide, by decide⟩) (by decide) (by decide) (by decide)⟩,
      ⟨tx c!"fields" c!"2", by simp [named_record, List.filter_cons, tag_tx, tag_field, tag_group], 2,
        digit_says _ _ _ (.inl ⟨by decide, by decide⟩) (by decide) (by decide) (by decide)⟩,
      ⟨tx c!"groups" c!"1", by simp [named_record, List.filter_cons, tag_tx, tag_field, tag_group], 1,
        digit_says _ _ _ (.inl ⟨by decide, by decide⟩) (by decide) (by decide) (by decide)⟩, ?_⟩
    · show named c!"Record_Binary" tableDoc = [recordDoc]
      simp [named_table, List.filter_cons, tag_tx, tag_record]
    · show Contents tableMachine c!"Binary" [tx c!"fields" c!"2", tx c!"groups" c!"1", tx c!"record_length" c!"9",
        fieldDoc c!"ID" c!"1" c!"3" c!"ASCII_Integer", groupDoc, fieldDoc c!"T" c!"8" c!"2" c!"UTF8_String"] Pds4Table.demo.body
      refine .other (by rw [tag_tx]; decide) (by rw [tag_tx]; decide) (.other (by rw [tag_tx]; decide) (by rw [tag_tx]; decide)
        (.other (by rw [tag_tx]; decide) (by rw [tag_tx]; decide) (.field (tag_field _ _ _ _) ?_ (.group tag_group groupDoc_ok ?_ (.field (tag_field _ _ _ _) ?_ .nil)))))
      · exact fieldDoc_ok _ _ _ _ _ _ (.inl ⟨by decide, by decide⟩) (.inl ⟨by decide, by decide⟩) (by decide) (by decide) (by decide) (by decide) (by decide) (by decide)
          ⟨'A', by decide, by decide⟩
      · show Contents tableMachine c!"Binary" [tx c!"repetitions" c!"2", tx c!"fields" c!"1", tx c!"groups" c!"0", tx c!"group_location" c!"4",
          tx c!"group_length" c!"4", fieldDoc c!"V" c!"1" c!"2" c!"UnsignedMSB2"] _
        refine .other (by rw [tag_tx]; decide) (by rw [tag_tx]; decide) (.other (by rw [tag_tx]; decide) (by rw [tag_tx]; decide)
          (.other (by rw [tag_tx]; decide) (by rw [tag_tx]; decide) (.other (by rw [tag_tx]; decide) (by rw [tag_tx]; decide)
          (.other (by rw [tag_tx]; decide) (by rw [tag_tx]; decide) (.field (tag_field _ _ _ _) ?_ .nil)))))
        exact fieldDoc_ok _ _ _ _ _ _ (.inl ⟨by decide, by decide⟩) (.inl ⟨by decide, by decide⟩) (by decide) (by decide) (by decide) (by decide) (by decide) (by decide)
          ⟨'U', by decide, by decide⟩
      · exact fieldDoc_ok _ _ _ _ _ _ (.inl ⟨by decide, by decide⟩) (.inl ⟨by decide, by decide⟩) (by decide) (by decide) (by decide) (by decide) (by decide) (by decide)
          ⟨'U', by decide, by decide⟩
  only := by
    show ∀ k ∈ [tx c!"name" c!"my table", tx c!"offset" c!"1", tx c!"records" c!"2", recordDoc], c!"Record_" <:+: tag k → tag k = c!"Record_Binary"
    intro k hk
    simp only [List.mem_cons, List.not_mem_nil, or_false] at hk
    rcases hk with rfl | rfl | rfl | rfl
    · rw [tag_tx, ← Datatypes.contains_iff]; decide
    · rw [tag_tx, ← Datatypes.contains_iff]; decide
    · rw [tag_tx, ← Datatypes.contains_iff]; decide
    · exact fun _ => tag_record
  no_uniform := ⟨by simp [named_table, List.filter_cons, tag_tx, tag_record], rfl⟩

theorem table_structures {x : Doc} (hx : ∃ k, HasKind (tag x) k) :
    areasIn (el c!"Product_Observational" [el c!"File_Area_Observational" [el c!"File" [tx c!"file_name" c!"table.dat"], x]]) =
        [el c!"File_Area_Observational" [el c!"File" [tx c!"file_name" c!"table.dat"], x]] ∧
    structuresIn (el c!"Product_Observational" [el c!"File_Area_Observational" [el c!"File" [tx c!"file_name" c!"table.dat"], x]]) =
      [(el c!"File_Area_Observational" [el c!"File" [tx c!"file_name" c!"table.dat"], x], x)] := by
  have h2 : areasIn (el c!"Product_Observational" [el c!"File_Area_Observational" [el c!"File" [tx c!"file_name" c!"table.dat"], x]]) =
        [el c!"File_Area_Observational" [el c!"File" [tx c!"file_name" c!"table.dat"], x]] := by
    unfold areasIn named
    simp [kids_el, List.filter_cons, tag_el]
  refine ⟨h2, ?_⟩
  have hk : ¬ ∃ k, HasKind c!"File" k := by
    rintro ⟨k, hk⟩
    have := Objects.kindOf_some hk
    revert this
    cases k <;> decide
  unfold structuresIn
  rw [h2]
  simp only [List.flatMap_cons, List.flatMap_nil, List.append_nil, structuresOf, kids_el]
  rw [List.filter_cons_of_neg (by rw [tag_el]; simpa using hk), List.filter_cons_of_pos (by simpa using hx)]
  rfl

theorem table_kind (r : Doc) : HasKind (tag (tableWith r)) .table := by
  rw [show tag (tableWith r) = c!"Table_Binary" from tag_el _ _]; exact Objects.hasKind_of (by decide)

theorem table_file (x : Doc) : FileName (el c!"File_Area_Observational" [el c!"File" [tx c!"file_name" c!"table.dat"], x]) c!"table.dat" := by
  refine ⟨[el c!"File" [tx c!"file_name" c!"table.dat"]], tx c!"file_name" c!"table.dat", elementsL [x], rfl, tag_tx _ _, ?_,
    says_tx _ _ _ (by decide) (by decide)⟩
  intro e he
  rw [List.mem_singleton] at he
  rw [he, tag_el]
  decide

theorem field_names (name location length type : Str) : AllNamed (fieldDoc name location length type) :=
  named_el _ _ (by decide) ⟨named_tx _ _ (by decide), named_tx _ _ (by decide), named_tx _ _ (by decide), named_tx _ _ (by decide), named_tx _ _ (by decide)⟩

theorem record_names : AllNamed recordDoc := by
  have h1 : AllNamed groupDoc := named_el _ _ (by decide) ⟨named_tx _ _ (by decide), named_tx _ _ (by decide), named_tx _ _ (by decide),
    named_tx _ _ (by decide), named_tx _ _ (by decide), field_names _ _ _ _⟩
  exact named_el _ _ (by decide) ⟨named_tx _ _ (by decide), named_tx _ _ (by decide), named_tx _ _ (by decide),
    field_names _ _ _ _, h1, field_names _ _ _ _⟩

theorem root_names {r : Doc} (h : AllNamed r) : ∀ e ∈ elements (rootWith (tableWith r)), NamedAs e := by
  have h3 : AllNamed (tableWith r) := named_el _ _ (by decide) ⟨named_tx _ _ (by decide), named_tx _ _ (by decide), named_tx _ _ (by decide), h⟩
  exact named_el _ _ (by decide) (named_el _ _ (by decide) ⟨named_el _ _ (by decide) (named_tx _ _ (by decide)), h3⟩)

def tableDs : List Described := [⟨⟨c!"Table_Binary", none, some c!"my table"⟩, .table, c!"table.dat"⟩]

theorem named_with (r : Doc) (n : Str) : named n (tableWith r) = ([tx c!"name" c!"my table", tx c!"offset" c!"1", tx c!"records" c!"2", r].filter
    (fun k => decide (tag k = n))) := by
  unfold named
  congr

theorem valid_with {r : Doc} (ht : tag r = c!"Record_Binary") (hc : Container r) (hn : AllNamed r) (h1 : named c!"fields" r ≠ [])
    (h2 : named c!"groups" r ≠ []) (h3 : named c!"record_length" r ≠ []) : Valid (rootWith (tableWith r)) tableDs where
  names := root_names hn
  product := by
    rw [show tag (rootWith (tableWith r)) = c!"Product_Observational" from tag_el _ _, ← Datatypes.contains_iff]
    decide
  files := by
    intro a ha
    rw [rootWith, (table_structures ⟨_, table_kind r⟩).1, List.mem_singleton] at ha
    rw [ha]
    exact ⟨_, table_file _⟩
  entries := by
    rw [rootWith, (table_structures ⟨_, table_kind r⟩).2]
    refine .cons ⟨container_el _ _ (by simp), (tag_el _ _).symm, table_kind r, ?_, ?_, table_file _⟩ .nil
    · simp [Optional, named_with, tag_tx, ht]
    · exact ⟨tx c!"name" c!"my table", by simp [named_with, tag_tx, ht], says_tx _ _ _ (by decide) (by decide)⟩
  arrays := by
    rw [rootWith, (table_structures ⟨_, table_kind r⟩).2]
    intro p hp hk
    rw [List.mem_singleton] at hp
    subst hp
    cases kind_unique hk (table_kind r)
  tables := by
    rw [rootWith, (table_structures ⟨_, table_kind r⟩).2]
    intro p hp _
    rw [List.mem_singleton] at hp
    subst hp
    refine ⟨[tx c!"name" c!"my table", tx c!"offset" c!"1", tx c!"records" c!"2"], r, [], rfl, ?_, ?_, hc, ?_, ?_, h1, h2, .inl ⟨.inr ht, h3⟩⟩
    · intro k hk
      simp only [List.mem_cons, List.not_mem_nil, or_false] at hk
      rcases hk with rfl | rfl | rfl <;> (rw [tag_tx, ← Datatypes.contains_iff]; decide)
    · simp [named_with, tag_tx, ht]
    · simp [named_with, tag_tx, ht]
    · simp [named_with, tag_tx, ht]
  headers := by
    rw [rootWith, (table_structures ⟨_, table_kind r⟩).2]
    intro p hp hk
    rw [List.mem_singleton] at hp
    subst hp
    cases kind_unique hk (table_kind r)

theorem table_valid : Valid tableRoot tableDs :=
  valid_with tag_record (container_el _ _ (by simp)) record_names (by simp [named_record, tag_tx, tag_field, tag_group])
    (by simp [named_record, tag_tx, tag_field, tag_group]) (by simp [named_record, tag_tx, tag_field, tag_group])

theorem not_fits : ¬ FitsName c!"/x/table.dat" := by
  rintro ⟨ext, h1, h2⟩
  simp only [List.mem_cons, List.not_mem_nil, or_false] at h1
  rcases h1 with rfl | rfl | rfl | rfl | rfl <;> revert h2 <;> decide

/-- the hypotheses of `C127_table` are met: `data["my_table"]` has the columns ID, V_0, V_1 and T -/
example : ∃ b1 b2 b3, read tableMachine c!"/x" c!"/x/label.xml" (etree tableRoot)
      (fun p => if p = c!"/x/table.dat" then some Pds4Table.demoFile else none) c!"my_table" = some (.ok (.table (b1 ++ b2 ++ b3))) ∧
    Pds4Table.Spec.Block tableMachine.env tableLabel0 Pds4Table.demoFile (⟨c!"V", 1, 2, c!"UnsignedMSB2"⟩, [⟨none, 4, 4, 2⟩]) b2 := by
  have hpl := Pds4Table.demo_placed
  obtain ⟨blocks, h1, h2⟩ := C127_table tableMachine c!"/x" c!"/x/label.xml" tableRoot tableDs table_valid
    (fun p => if p = c!"/x/table.dat" then some Pds4Table.demoFile else none) [] tableDs[0] [] rfl tableArea tableDoc
    (by rw [tableRoot, rootWith, tableDoc, (table_structures ⟨_, table_kind recordDoc⟩).2]; rfl) rfl (by decide)
    (by intro mid e last h; cases mid <;> cases h) ⟨by decide, by decide⟩ c!"/x/table.dat" ⟨by decide, by decide, by decide⟩ not_fits
    tableLabel0 tableDoc_ok ⟨Pds4Table.demo_named.body, by simp [tableLabel0], by simp [tableLabel0]⟩ Pds4Table.demoFile (by decide)
    ⟨⟨hpl.some_records, hpl.whole, hpl.divides, hpl.located, hpl.within, hpl.values⟩, Pds4Table.demo_readable.depth⟩
  have hl : Pds4Table.Spec.leaves [] tableLabel0.body = [(⟨c!"ID", 1, 3, c!"ASCII_Integer"⟩, []), (⟨c!"V", 1, 2, c!"UnsignedMSB2"⟩, [⟨none, 4, 4, 2⟩]),
    (⟨c!"T", 8, 2, c!"UTF8_String"⟩, [])] := rfl
  rw [hl] at h2
  cases h2 with
  | cons g1 h2 => cases h2 with
    | cons g2 h2 => cases h2 with
      | cons g3 h2 =>
        cases h2
        rename_i b1 b2 b3
        refine ⟨b1, b2, b3, ?_, g2⟩
        have h1 : _ = some (Except.ok (Data.table (b1 ++ (b2 ++ (b3 ++ []))))) := h1
        rw [List.append_assoc]
        rw [List.append_nil] at h1
        exact h1

/-- a table without record: nothing can be read -/
example : ∃ e, read tableMachine c!"/x" c!"/x/label.xml"
    (etree (el c!"Product_Observational" [el c!"File_Area_Observational" [el c!"File" [tx c!"file_name" c!"table.dat"],
      el c!"Table_Character" [tx c!"offset" c!"0", tx c!"records" c!"1"]]])) (fun _ => some [49]) c!"label" = some (.error e) := by
  have hk : HasKind (tag (el c!"Table_Character" [tx c!"offset" c!"0", tx c!"records" c!"1"])) .table := by
    rw [tag_el]; exact Objects.hasKind_of (by decide)
  refine C128_missing tableMachine _ _ _ _ _ (named_el _ _ (by decide) (named_el _ _ (by decide) ⟨named_el _ _ (by decide) (named_tx _ _ (by decide)),
    named_el _ _ (by decide) ⟨named_tx _ _ (by decide), named_tx _ _ (by decide)⟩⟩)) _ _
    (by rw [(table_structures ⟨_, hk⟩).2]; exact List.mem_cons_self) hk (container_el _ _ (by simp)) (.inl ?_)
  intro k hk
  simp only [kids_el, List.mem_cons, List.not_mem_nil, or_false] at hk
  rcases hk with rfl | rfl <;> (rw [tag_tx, ← Datatypes.contains_iff]; decide)

/-- a record without its length -/
def shortRecord : Doc := el c!"Record_Binary" [tx c!"fields" c!"0", tx c!"groups" c!"0"]

example : ∃ e, read tableMachine c!"/x" c!"/x/label.xml" (etree (rootWith (tableWith shortRecord))) (fun _ => some [49]) c!"my_table" = some (.error e) := by
  have ht : tag shortRecord = c!"Record_Binary" := tag_el _ _
  refine C128_record tableMachine _ _ _ _ _ (root_names (named_el _ _ (by decide) ⟨named_tx _ _ (by decide), named_tx _ _ (by decide)⟩))
    (el c!"File_Area_Observational" [el c!"File" [tx c!"file_name" c!"table.dat"], tableWith shortRecord]) (tableWith shortRecord)
    (by rw [rootWith, (table_structures ⟨_, table_kind shortRecord⟩).2]; exact List.mem_cons_self) (table_kind _) (container_el _ _ (by simp))
    c!"Record_Binary" (by rw [← Datatypes.contains_iff]; decide) ?_
    ⟨shortRecord, by simp [named_with, tag_tx, ht], container_el _ _ (by simp), .inr (.inr ⟨.inr rfl, by simp [shortRecord, named, kids_el, List.filter_cons, tag_tx]⟩)⟩
  intro k hk
  simp only [tableWith, kids_el, List.mem_cons, List.not_mem_nil, or_false] at hk
  rcases hk with rfl | rfl | rfl | rfl
  · rw [tag_tx, ← Datatypes.contains_iff]; decide
  · rw [tag_tx, ← Datatypes.contains_iff]; decide
  · rw [tag_tx, ← Datatypes.contains_iff]; decide
  · exact fun _ => ht

/-- a field whose format is the number 3 -/
def oddField : Doc :=
  el c!"Field_Binary" [tx c!"name" c!"A", tx c!"field_location" c!"1", tx c!"data_type" c!"ASCII_String", tx c!"field_length" c!"3",
    tx c!"field_format" c!"3"]

def oddRecord : Doc := el c!"Record_Binary" [tx c!"fields" c!"1", tx c!"groups" c!"0", tx c!"record_length" c!"3", oddField]

/-- the hypotheses of `C128_field` are met -/
example : ∃ e, read tableMachine c!"/x" c!"/x/label.xml" (etree (rootWith (tableWith oddRecord))) (fun _ => some [10, 97, 98, 99, 100, 101, 102]) c!"my_table" =
    some (.error e) := by
  have ht : tag oddRecord = c!"Record_Binary" := tag_el _ _
  have hf : tag oddField = c!"Field_Binary" := tag_el _ _
  have hv : Valid (rootWith (tableWith oddRecord)) tableDs := by
    refine valid_with ht (container_el _ _ (by simp)) (named_el _ _ (by decide) ⟨named_tx _ _ (by decide), named_tx _ _ (by decide), named_tx _ _ (by decide),
      named_el _ _ (by decide) ⟨named_tx _ _ (by decide), named_tx _ _ (by decide), named_tx _ _ (by decide), named_tx _ _ (by decide), named_tx _ _ (by decide)⟩⟩) ?_ ?_ ?_
    all_goals simp [oddRecord, named, kids_el, List.filter_cons, tag_tx, hf]
  refine C128_field tableMachine c!"/x" c!"/x/label.xml" _ tableDs hv (fun _ => some [10, 97, 98, 99, 100, 101, 102]) [] tableDs[0] [] rfl
    (el c!"File_Area_Observational" [el c!"File" [tx c!"file_name" c!"table.dat"], tableWith oddRecord]) (tableWith oddRecord)
    (by rw [rootWith, (table_structures ⟨_, table_kind oddRecord⟩).2]; rfl) rfl (by decide) (by intro mid e last h; cases mid <;> cases h)
    ⟨by decide, by decide⟩ c!"/x/table.dat" ⟨by decide, by decide, by decide⟩ not_fits c!"Binary" (by decide) ?_
    ⟨oddRecord, ?_, container_el _ _ (by simp), oddField, .here (by simp [oddRecord, kids_el]), hf, container_el _ _ (by simp), ?_, .inr
      ⟨tx c!"field_format" c!"3", by simp [called, oddField, kids_el, List.filter_cons, tag_tx], 3,
        digit_says _ _ _ (.inl ⟨by decide, by decide⟩) (by decide) (by decide) (by decide)⟩⟩
  · intro k hk
    simp only [tableWith, kids_el, List.mem_cons, List.not_mem_nil, or_false] at hk
    rcases hk with rfl | rfl | rfl | rfl
    · rw [tag_tx, ← Datatypes.contains_iff]; decide
    · rw [tag_tx, ← Datatypes.contains_iff]; decide
    · rw [tag_tx, ← Datatypes.contains_iff]; decide
    · exact fun _ => ht
  · show named c!"Record_Binary" _ = _
    simp [named_with, tag_tx, ht]
  · refine plain_of ⟨.inl ?_, .inr ⟨c!"location", ?_, by decide⟩, .inl ?_, .inr ⟨c!"length", ?_, by decide⟩, .inr ⟨c!"format", ?_, by decide⟩⟩
    · rw [tag_tx]; decide
    · rw [tag_tx]; rfl
    · rw [tag_tx]; decide
    · rw [tag_tx]; rfl
    · rw [tag_tx]; rfl

end Verif.Pds4Read
