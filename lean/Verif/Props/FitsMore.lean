/-
C84: names that do not clash, start bytes, PDS4 labels; C85: limits.
-/
import Verif.Props.FitsGet

namespace Verif.Fits
open Verif.Py Verif.Fits.Spec Verif.Load Verif.Load.Spec

variable {B : Type}

/-! ### names that do not clash -/

theorem infix_of_append {x t h : Str} {c : Char} (hi : (h ++ [c]) <:+: x ++ t) (hc : c ∉ t) : (h ++ [c]) <:+: x := by
  obtain ⟨a, b, hab⟩ := hi
  rcases List.append_eq_append_iff.mp hab with ⟨y, h1, h2⟩ | ⟨y, h1, h2⟩
  · exact ⟨a, y, h1.symm⟩
  · rcases List.eq_nil_or_concat y with rfl | ⟨z, d, rfl⟩
    · exact ⟨a, [], by simpa using h1⟩
    · exfalso
      have hd : d = c := by
        have := congrArg List.getLast? h1
        simpa using this.symm
      apply hc
      rw [h2, hd]
      simp

theorem numbered_inj {x y : Str} {k l : Nat} (h : x ++ c!"_" ++ natStr k = y ++ c!"_" ++ natStr l) : x = y ∧ k = l := by
  have hu : ∀ n, '_' ∉ natStr n := by
    intro n hm
    have := Pds4Table.natStr_digit hm
    exact absurd this (by decide)
  rcases List.append_eq_append_iff.mp h with ⟨z, h1, h2⟩ | ⟨z, h1, h2⟩
  · cases z using List.reverseRecOn with
    | nil =>
      rw [List.append_nil] at h1
      refine ⟨(List.append_cancel_right h1).symm, Pds4Table.natStr_inj (by simpa using h2)⟩
    | append_singleton z c =>
      exfalso
      have hc : c = '_' := by
        have := congrArg List.getLast? h1
        rw [← List.append_assoc, List.getLast?_concat, List.getLast?_concat] at this
        exact (Option.some.inj this).symm
      apply hu k
      rw [h2, hc]
      simp
  · cases z using List.reverseRecOn with
    | nil =>
      rw [List.append_nil] at h1
      refine ⟨List.append_cancel_right h1, (Pds4Table.natStr_inj (by simpa using h2)).symm⟩
    | append_singleton z c =>
      exfalso
      have hc : c = '_' := by
        have := congrArg List.getLast? h1
        rw [← List.append_assoc, List.getLast?_concat, List.getLast?_concat] at this
        exact (Option.some.inj this).symm
      apply hu l
      rw [h2, hc]
      simp

theorem rank_inj {l : List Str} {x : Str} {i j : Nat} (hi : l[i]? = some x) (hj : l[j]? = some x)
    (h : (l.take i).count x = (l.take j).count x) : i = j := by
  have hmi : i ∈ pos 0 l x := (mem_pos _ _ _ _).mpr ⟨by omega, by simpa using hi⟩
  have hmj : j ∈ pos 0 l x := (mem_pos _ _ _ _).mpr ⟨by omega, by simpa using hj⟩
  obtain ⟨r, hr⟩ := List.getElem?_of_mem hmi
  obtain ⟨q, hq⟩ := List.getElem?_of_mem hmj
  have h1 := pos_rank 0 l x r i hr
  have h2 := pos_rank 0 l x q j hq
  rw [Nat.sub_zero] at h1 h2
  rw [h1, h2] at h
  subst h
  rw [hr] at hq
  cases hq
  rfl

theorem natStr_last (k : Nat) : ∃ t c, natStr k = t ++ [c] ∧ c.isDigit = true := by
  rcases List.eq_nil_or_concat (natStr k) with h | ⟨t, c, h⟩
  · exact absurd h (Pds4Table.natStr_ne k)
  · refine ⟨t, c, by rw [h]; simp, Pds4Table.natStr_digit (n := k) ?_⟩
    rw [h]; simp

theorem count_one_inj {l : List Str} {x : Str} {i j : Nat} (h : l.count x = 1) (hi : l[i]? = some x) (hj : l[j]? = some x) : i = j := by
  have hmi : i ∈ pos 0 l x := (mem_pos _ _ _ _).mpr ⟨by omega, by simpa using hi⟩
  have hmj : j ∈ pos 0 l x := (mem_pos _ _ _ _).mpr ⟨by omega, by simpa using hj⟩
  obtain ⟨a, ha⟩ := List.length_eq_one_iff.mp ((pos_length 0 l x).trans h)
  rw [ha, List.mem_singleton] at hmi hmj
  rw [hmi, hmj]

/-- **C84 (names that do not clash).** They do not clash if no HDU has HEADER in its name and none has a name that ends in a
digit, however often names are repeated; nor if no name is repeated and none ends in "_HEADER". -/
theorem C84_clean (l : List Str) :
    ((∀ x ∈ l, ¬ c!"HEADER" <:+: x ∧ ∀ c, x.getLast? = some c → c.isDigit = false) → Clean l) ∧
    (l.Nodup → (∀ x ∈ l, ¬ c!"_HEADER" <:+ x) → Clean l) := by
  constructor
  · intro H
    have hd : ∀ x ∈ l, ∀ y k, x ≠ y ++ c!"_" ++ natStr k := by
      intro x hx y k he
      obtain ⟨t, c, ht, hc⟩ := natStr_last k
      have := (H x hx).2 c (by rw [he, ht, ← List.append_assoc, List.getLast?_concat])
      rw [hc] at this
      cases this
    constructor
    · rintro i j n ⟨x, hx, hi⟩ ⟨y, hy, hj⟩
      rcases hi with ⟨h1, h2⟩ | ⟨h1, h2⟩ <;> rcases hj with ⟨h3, h4⟩ | ⟨h3, h4⟩
      · rw [h2] at h4; subst h4; exact count_one_inj h1 hx hy
      · exact absurd (h2.symm.trans h4) (hd x (List.mem_of_getElem? hx) _ _)
      · exact absurd (h4.symm.trans h2) (hd y (List.mem_of_getElem? hy) _ _)
      · obtain ⟨h5, h6⟩ := numbered_inj (h2.symm.trans h4)
        subst h5
        exact rank_inj hx hy h6
    · rintro i j n m ⟨x, hx, hi⟩ _ he
      rcases hi with ⟨_, h2⟩ | ⟨_, h2⟩
      · rw [h2] at he
        exact (H x (List.mem_of_getElem? hx)).1 ⟨m ++ c!"_", [], by rw [he]; simp⟩
      · rw [h2] at he
        obtain ⟨t, c, ht, hc⟩ := natStr_last ((l.take i).count x)
        rw [ht] at he
        have := congrArg List.getLast? he
        rw [← List.append_assoc, show m ++ c!"_HEADER" = (m ++ c!"_HEADE") ++ ['R'] by simp, List.getLast?_concat,
          List.getLast?_concat] at this
        rw [Option.some.inj this] at hc
        exact absurd hc (by decide)
    · rintro i n ⟨x, hx, hi⟩ hnm hin
      rcases hi with ⟨_, h2⟩ | ⟨_, h2⟩
      · rw [h2] at hnm; exact hnm (List.mem_of_getElem? hx)
      · rw [h2, List.append_assoc] at hin
        refine (H x (List.mem_of_getElem? hx)).1 (infix_of_append (h := c!"HEADE") (c := 'R') hin ?_)
        simp only [List.mem_append, not_or]
        refine ⟨by decide, fun hm => ?_⟩
        have := Pds4Table.natStr_digit hm
        exact absurd this (by decide)
  · intro hnd hh
    have hL : ∀ i n, ListedAs l i n → l[i]? = some n := by
      rintro i n ⟨x, hx, h⟩
      have h1 := List.nodup_iff_count_le_one.mp hnd x
      rcases h with ⟨_, rfl⟩ | ⟨h2, _⟩
      · exact hx
      · omega
    constructor
    · intro i j n hi hj
      have h1 := List.nodup_iff_count_le_one.mp hnd n
      have h2 : 0 < l.count n := List.count_pos_iff.mpr (List.mem_of_getElem? (hL i n hi))
      exact count_one_inj (by omega) (hL i n hi) (hL j n hj)
    · intro i j n m hi _ he
      exact hh n (List.mem_of_getElem? (hL i n hi)) ⟨m, he.symm⟩
    · intro i n hi hn
      exact absurd (List.mem_of_getElem? (hL i n hi)) hn

/-! ### by start byte -/

/-- **C84 (headers are mended).** When an HDU is found by its start byte, its header is always loaded: all of it, if every card can be read;
otherwise as it is after mending, or before it if the file cannot be mended, without the cards that cannot be read. -/
theorem C84_mended (f : File B) (i : Nat) (h : Hdu B) :
    (Card.bad ∉ h.cards → headerOf f i h = header h.cards) ∧
    (Card.bad ∈ h.cards → f.fix = none → headerOf f i h = header h.cards) ∧
    (Card.bad ∈ h.cards → ∀ cs fixed, f.fix = some cs → cs[i]? = some fixed → headerOf f i h = header fixed) := by
  refine ⟨?_, ?_, ?_⟩
  · intro hb
    unfold headerOf
    rw [readHeader_good _ hb]
  · intro hb hf
    unfold headerOf
    rw [readHeader_bad _ hb, hf]
    simp only [readHeader_skip, Option.getD_some]
  · intro hb cs fixed hf hi
    have e : cs.getD i [] = fixed := by rw [List.getD_eq_getElem?_getD, hi]; rfl
    unfold headerOf
    rw [readHeader_bad _ hb, hf]
    simp only [e]
    by_cases hb2 : Card.bad ∈ fixed
    · rw [readHeader_bad _ hb2]
      simp only [readHeader_skip, Option.getD_some]
    · rw [readHeader_good _ hb2]

/-- the places, one after another -/
theorem byteIndex_mem (f : File B) (loc : Int) (i : Nat) (b : Bool) :
    (loc, (i, b)) ∈ byteIndex f ↔ ∃ h, f.hdus[i]? = some h ∧ ((b = true ∧ loc = h.hdrLoc) ∨ (b = false ∧ loc = h.datLoc)) := by
  unfold byteIndex
  rw [List.mem_flatMap]
  constructor
  · rintro ⟨⟨h, j⟩, hm, hq⟩
    have hm := List.mk_mem_zipIdx_iff_getElem?.mp hm
    simp only [List.mem_cons, Prod.mk.injEq, List.not_mem_nil, or_false] at hq
    rcases hq with ⟨rfl, rfl, rfl⟩ | ⟨rfl, rfl, rfl⟩
    · exact ⟨h, hm, .inl ⟨rfl, rfl⟩⟩
    · exact ⟨h, hm, .inr ⟨rfl, rfl⟩⟩
  · rintro ⟨h, hm, hq⟩
    refine ⟨(h, i), List.mk_mem_zipIdx_iff_getElem?.mpr hm, ?_⟩
    rcases hq with ⟨rfl, rfl⟩ | ⟨rfl, rfl⟩ <;> simp

theorem placed_lt {f : File B} (hp : Placed f) {i j : Nat} {a b : Hdu B} (ha : f.hdus[i]? = some a) (hb : f.hdus[j]? = some b)
    (hij : i < j) : a.hdrLoc < a.datLoc ∧ a.datLoc ≤ b.hdrLoc ∧ b.hdrLoc < b.datLoc := by
  obtain ⟨hi, rfl⟩ := List.getElem?_eq_some_iff.mp ha
  obtain ⟨hj, rfl⟩ := List.getElem?_eq_some_iff.mp hb
  exact ⟨hp.1 _ (List.getElem_mem hi), List.pairwise_iff_getElem.mp hp.2 i j hi hj hij, hp.1 _ (List.getElem_mem hj)⟩

/-- what is found at the start byte of a header: later entries replace earlier ones -/
theorem lastOf_header {f : File B} (hp : Placed f) {i : Nat} {h : Hdu B} (hh : f.hdus[i]? = some h) :
    lastOf (byteIndex f) h.hdrLoc = some (i, true) := by
  obtain ⟨hi, rfl⟩ := List.getElem?_eq_some_iff.mp hh
  have hsplit : f.hdus = f.hdus.take i ++ f.hdus[i] :: f.hdus.drop (i + 1) := by
    rw [← List.drop_eq_getElem_cons hi, List.take_append_drop]
  have hz : byteIndex f = (f.hdus.take i).zipIdx.flatMap (fun q => [(q.1.hdrLoc, (q.2, true)), (q.1.datLoc, (q.2, false))]) ++
      ((f.hdus[i].hdrLoc, (i, true)) :: (f.hdus[i].datLoc, (i, false)) ::
        ((f.hdus.drop (i + 1)).zipIdx (i + 1)).flatMap (fun q => [(q.1.hdrLoc, (q.2, true)), (q.1.datLoc, (q.2, false))])) := by
    unfold byteIndex
    conv_lhs => rw [hsplit]
    rw [List.zipIdx_append, List.flatMap_append, List.zipIdx_cons, List.flatMap_cons]
    simp [Nat.min_eq_left (Nat.le_of_lt hi)]
  rw [hz, lastOf_append]
  have h2 : lastOf ((f.hdus[i].hdrLoc, (i, true)) :: (f.hdus[i].datLoc, (i, false)) ::
        ((f.hdus.drop (i + 1)).zipIdx (i + 1)).flatMap (fun q => [(q.1.hdrLoc, (q.2, true)), (q.1.datLoc, (q.2, false))]))
        f.hdus[i].hdrLoc = some (i, true) := by
    refine lastOf_unique (List.mem_cons_self ..) ?_
    rintro ⟨j, b⟩ hm
    rcases List.mem_cons.mp hm with hm | hm
    · cases hm; rfl
    · exfalso
      rcases List.mem_cons.mp hm with hm | hm
      · have := hp.1 _ (List.getElem_mem hi)
        simp only [Prod.mk.injEq] at hm
        omega
      · obtain ⟨⟨x, k⟩, hx, hq⟩ := List.mem_flatMap.mp hm
        obtain ⟨hk, hx⟩ := List.mk_mem_zipIdx_iff_le_and_getElem?_sub.mp hx
        rw [List.getElem?_drop, show i + 1 + (k - (i + 1)) = k by omega] at hx
        have := placed_lt hp hh hx (by omega)
        simp only [List.mem_cons, Prod.mk.injEq, List.not_mem_nil, or_false] at hq
        omega
  rw [h2]
  rfl

theorem lastOf_data {f : File B} (hp : Placed f) {i : Nat} {h : Hdu B} (hh : f.hdus[i]? = some h)
    (hne : ∀ g ∈ f.hdus, g.hdrLoc ≠ h.datLoc) : lastOf (byteIndex f) h.datLoc = some (i, false) := by
  refine lastOf_unique ((byteIndex_mem f _ _ _).mpr ⟨h, hh, .inr ⟨rfl, rfl⟩⟩) ?_
  rintro ⟨j, b⟩ hm
  obtain ⟨g, hg, hq⟩ := (byteIndex_mem f _ _ _).mp hm
  rcases hq with ⟨_, hl⟩ | ⟨rfl, hl⟩
  · exact absurd hl.symm (hne g (List.mem_of_getElem? hg))
  · rcases Nat.lt_trichotomy i j with hij | rfl | hij
    · have := placed_lt hp hh hg hij
      omega
    · rfl
    · have := placed_lt hp hg hh hij
      omega

/-- **C84 (start bytes).** A label points into a FITS file: the start byte of a header gives this header under the object's name; the start byte of
data gives the data, and the header under the name followed by "_HEADER"; any other is a KeyError. -/
theorem C84_by_byte (f : File B) (hp : Placed f) (name : Str) :
    (∀ i h, f.hdus[i]? = some h → byByte f name h.hdrLoc = .ok [(name, .header (headerOf f i h))]) ∧
    (∀ i h, f.hdus[i]? = some h → (∀ g ∈ f.hdus, g.hdrLoc ≠ h.datLoc) →
      byByte f name h.datLoc = .ok [(name ++ c!"_HEADER", .header (headerOf f i h)), (name, data h)]) ∧
    (∀ start, (∀ h ∈ f.hdus, h.hdrLoc ≠ start ∧ h.datLoc ≠ start) → byByte f name start = .error .keyError) := by
  refine ⟨?_, ?_, ?_⟩
  · intro i h hh
    unfold byByte
    rw [lastOf_header hp hh]
    simp only [objects, hh, if_true]
  · intro i h hh hne
    unfold byByte
    rw [lastOf_data hp hh hne]
    simp only [objects, hh, Bool.false_eq_true, if_false, bodyOf_eq]
  · intro start hne
    unfold byByte
    rw [lastOf_none]
    rintro ⟨i, b⟩ hm
    obtain ⟨g, hg, hq⟩ := (byteIndex_mem f _ _ _).mp hm
    have := hne g (List.mem_of_getElem? hg)
    rcases hq with ⟨_, hl⟩ | ⟨_, hl⟩
    · exact this.1 hl.symm
    · exact this.2 hl.symm

/-! ### PDS4 labels -/

theorem headerId_cons (s : Struct) (ss : List Struct) (start : Int) :
    (EndsAt start s → headerId (s :: ss) start = s.name.map underscored) ∧
    (¬ EndsAt start s → headerId (s :: ss) start = headerId ss start) := by
  unfold EndsAt
  cases hh : s.isHeader with
  | false => simp [headerId, hh]
  | true =>
    cases hl : s.length with
    | none => simp [headerId, hh, hl]
    | some n =>
      simp only [headerId, hh, hl]
      by_cases he : s.offset + n = start
      · simp [he]; rfl
      · simp [he]

theorem headerId_none (structs : List Struct) (start : Int) (h : ∀ s ∈ structs, ¬ EndsAt start s) : headerId structs start = none := by
  induction structs with
  | nil => rfl
  | cons s ss ih =>
    rw [(headerId_cons s ss start).2 (h s (List.mem_cons_self ..))]
    exact ih (fun s hs => h s (List.mem_cons_of_mem _ hs))

theorem headerId_first (a : List Struct) (s : Struct) (b : List Struct) (start : Int) (h : ∀ s ∈ a, ¬ EndsAt start s)
    (hs : EndsAt start s) : headerId (a ++ s :: b) start = s.name.map underscored := by
  induction a with
  | nil => exact (headerId_cons s b start).1 hs
  | cons x a ih =>
    rw [List.cons_append, (headerId_cons x _ start).2 (h x (List.mem_cons_self ..))]
    exact ih (fun s hs => h s (List.mem_cons_of_mem _ hs))

theorem rename_pair {A : Type} (key hid : Str) (x y : Obj A) (hne : hid ≠ key) :
    rename (key ++ c!"_HEADER") hid [(key ++ c!"_HEADER", x), (key, y)] = .ok [(key, y), (hid, x)] := by
  have h0 : key ≠ key ++ c!"_HEADER" := by
    intro h
    have := congrArg List.length h
    simp at this
  unfold rename
  simp [h0, Ne.symm hne]

/-- **C84 (PDS4).** An array or table in a FITS file with a PDS4 label, at the start byte of an HDU's data: it is the data, and the HDU's header comes with it, under the name
(with underscores for spaces) of the first header of the label that ends there; if there is none, or it has no name, under the object's
name followed by "_HEADER". A header of the label is the HDU's header. -/
theorem C84_pds4 (f : File B) (hp : Placed f) (structs : List Struct) (s : Struct) (i : Nat) (h : Hdu B)
    (hh : f.hdus[i]? = some h) :
    (s.isHeader = true → s.offset = h.hdrLoc → loadPds4 f structs s = .ok [(s.key, .header (headerOf f i h))]) ∧
    (s.isHeader = false → s.offset = h.datLoc → (∀ g ∈ f.hdus, g.hdrLoc ≠ h.datLoc) →
      ((∀ t ∈ structs, ¬ EndsAt s.offset t) →
        loadPds4 f structs s = .ok [(s.key ++ c!"_HEADER", .header (headerOf f i h)), (s.key, data h)]) ∧
      (∀ a t b, structs = a ++ t :: b → (∀ t ∈ a, ¬ EndsAt s.offset t) → EndsAt s.offset t →
        (t.name = none → loadPds4 f structs s = .ok [(s.key ++ c!"_HEADER", .header (headerOf f i h)), (s.key, data h)]) ∧
        (∀ n, t.name = some n → underscored n ≠ s.key →
          loadPds4 f structs s = .ok [(s.key, data h), (underscored n, .header (headerOf f i h))]))) := by
  constructor
  · intro h1 h2
    unfold loadPds4
    rw [h2, (C84_by_byte f hp s.key).1 i h hh]
    simp [h1]
  · intro h1 h2 hne
    have e := (C84_by_byte f hp s.key).2.1 i h hh hne
    unfold loadPds4
    rw [h2, e]
    simp only [h1, Bool.false_eq_true, if_false]
    constructor
    · intro hno
      rw [headerId_none structs _ hno]
    · intro a t b hst ha ht
      rw [hst, headerId_first a t b _ ha ht]
      constructor
      · intro hn
        rw [hn]
        rfl
      · intro n hn hk
        rw [hn]
        exact rename_pair s.key (underscored n) _ _ hk

/-! ### C85: limits -/

/-- **C85 (limit).** One card that cannot be read, in any header, and the whole file cannot be opened directly, although every HDU of it can
be loaded through a label that gives its start byte. -/
theorem C85_bad_card (f : File B) (h : Hdu B) (hh : h ∈ f.hdus) (hb : Card.bad ∈ h.cards) :
    openPrimary f = none ∧
    (Placed f → ∀ (name : Str) (i : Nat) (g : Hdu B), f.hdus[i]? = some g → ∃ l, byByte f name g.hdrLoc = .ok l ∧ l ≠ []) := by
  constructor
  · have := (C84_names f).1
    cases ho : openPrimary f with
    | none => rfl
    | some s =>
      exfalso
      rw [ho] at this
      exact this.mp rfl h hh hb
  · intro hp name i g hg
    exact ⟨[(name, .header (headerOf f i g))], (C84_by_byte f hp name).1 i g hg, by simp⟩

/-- **C85 (limit).** An HDU that shares its name with another and has HEADER in it: asking for it gives its header; its data cannot be had. -/
theorem C85_numbered_header (f : File B) (s0 : State (Obj B)) (ho : openPrimary f = some s0) (i : Nat) (n : Str) (h : Hdu B)
    (hn : ListedAs (names f) i n) (hu : ∀ j, ListedAs (names f) j n → j = i) (hh : f.hdus[i]? = some h)
    (hm : n ∉ names f) (hc : c!"HEADER" <:+: n) : loadPrimary f n = .ok [(n, .header (header h.cards))] := by
  unfold loadPrimary
  rw [lastOf_unique (listed_mem hn) (fun j hj => hu j (hduMap_listed _ _ _ hj))]
  have : (contains n c!"HEADER" && !(names f).contains n) = true := by
    rw [Bool.and_eq_true, Datatypes.contains_iff]
    refine ⟨hc, ?_⟩
    simp only [Bool.not_eq_true', ← Bool.not_eq_true, List.contains_iff_mem]
    exact hm
  simp only [this, objects, hh, if_true]
  rw [headerOf_good (opened_good ho hh)]

/-- **C85 (limit).** If several HDUs are listed by the same name (two called A and one called A_0), it stands for the one whose own name appears last in the file; the
others cannot be had. -/
theorem C85_same_name (f : File B) (n : Str) (j : Nat) (hj : ListedAs (names f) j n)
    (hl : ∀ i, ListedAs (names f) i n → i = j ∨ Before (names f) i j) :
    ∃ b, loadPrimary f n = objects f n j b := by
  unfold loadPrimary
  rw [lastOf_last hj hl]
  exact ⟨_, rfl⟩

/-- **C85 (limit).** The header of an HDU is not in the list of names, and asking for it is an AttributeError, until the HDU has been
loaded. -/
theorem C85_header_late (f : File B) (s0 : State (Obj B)) (ho : openPrimary f = some s0) (hc : Clean (names f))
    (debug : Bool) (builtin : Str → Bool) (meta' : Str → Option (Obj B)) (i : Nat) (n : Str) (hn : ListedAs (names f) i n)
    (hb : builtin (n ++ c!"_HEADER") = false) :
    n ++ c!"_HEADER" ∉ s0.index ∧
    Load.get (env f debug builtin meta') s0 (n ++ c!"_HEADER") = (s0, .err .attributeError) := by
  have hx : n ++ c!"_HEADER" ∉ s0.index := by
    rw [opened_index ho]
    rintro ⟨j, hj⟩
    exact hc.noHeader j i _ n hj hn rfl
  refine ⟨hx, ?_⟩
  unfold Load.get
  rw [if_neg (by simp [env, hb]), ((C84_names f).2 s0 ho).1]
  simp only
  rw [if_pos hx]

/-- **C85 (limit).** A header that is in the list cannot be reloaded, nor had again once it is deleted: KeyError. -/
theorem C85_header_again (f : File B) (hc : Clean (names f))
    (debug : Bool) (builtin : Str → Bool) (meta' : Str → Option (Obj B)) (s : State (Obj B)) (i : Nat) (n : Str)
    (hn : ListedAs (names f) i n) (hi : n ++ c!"_HEADER" ∈ s.index) :
    (load (env f debug builtin meta') s (n ++ c!"_HEADER") true).2 = .err .keyError ∧
    (builtin (n ++ c!"_HEADER") = false →
      (Load.get (env f debug builtin meta') (del s (n ++ c!"_HEADER")) (n ++ c!"_HEADER")).2 = .err .keyError) := by
  have hf : loadPrimary f (n ++ c!"_HEADER") = .error .keyError :=
    loadPrimary_other (fun j hj => hc.noHeader j i _ n hj hn rfl)
  have hask : ∀ k, (env f debug builtin meta').ask k (n ++ c!"_HEADER") = .fails .keyError := by
    intro k
    simp only [env, hf, outcome]
  constructor
  · exact ((C18_load_other (env f debug builtin meta') s _ true (by simp [env]) hi (fun _ => rfl)).2.2 _ (hask _)).1
  · intro hb
    have hl : loaded (env f debug builtin meta') (del s (n ++ c!"_HEADER")) (n ++ c!"_HEADER") = false := by
      simp [loaded, del, env, hb]
    have h2 := ((C18_load_other (env f debug builtin meta') (del s (n ++ c!"_HEADER")) _ false (by simp [env]) hi
      (fun h => by rw [hl] at h; cases h)).2.2 _ (hask _)).1
    unfold Load.get
    rw [if_neg (by simp [env, hb])]
    have h3 : (del s (n ++ c!"_HEADER")).attrs (n ++ c!"_HEADER") = none := by simp [del]
    have h4 : n ++ c!"_HEADER" ∈ (del s (n ++ c!"_HEADER")).index := hi
    rw [h3]
    simp only
    rw [if_neg (by simpa using h4)]
    generalize load (env f debug builtin meta') (del s (n ++ c!"_HEADER")) (n ++ c!"_HEADER") false = p at h2 ⊢
    obtain ⟨s', r⟩ := p
    simp only at h2
    subst h2
    rfl

/-- **C85 (limit).** One HDU is listed as A, another as A_HEADER: once that is loaded, asking for A replaces its data by the header
of A, without a warning. -/
theorem C85_header_replaces (f : File B) (debug : Bool) (builtin : Str → Bool) (meta' : Str → Option (Obj B))
    (s0 : State (Obj B)) (ho : openPrimary f = some s0) (i j : Nat) (n : Str) (a b : Hdu B)
    (hi : ListedAs (names f) i n) (hj : ListedAs (names f) j (n ++ c!"_HEADER"))
    (hui : ∀ k, ListedAs (names f) k n → k = i) (huj : ∀ k, ListedAs (names f) k (n ++ c!"_HEADER") → k = j)
    (hmi : n ∈ names f) (hmj : n ++ c!"_HEADER" ∈ names f)
    (ha : f.hdus[i]? = some a) (hb : f.hdus[j]? = some b)
    (hbn : builtin n = false) (hbh : builtin (n ++ c!"_HEADER") = false) :
    ∃ s1 s2, Load.get (env f debug builtin meta') s0 (n ++ c!"_HEADER") = (s1, .value (some (data b))) ∧
      Load.get (env f debug builtin meta') s1 n = (s2, .value (some (data a))) ∧
      Load.get (env f debug builtin meta') s2 (n ++ c!"_HEADER") = (s2, .value (some (.header (header a.cards)))) := by
  have hload : ∀ (k : Nat) (m : Str) (h : Hdu B), ListedAs (names f) k m → (∀ j, ListedAs (names f) j m → j = k) → m ∈ names f →
      f.hdus[k]? = some h → loadPrimary f m = .ok [(m ++ c!"_HEADER", .header (header h.cards)), (m, data h)] := by
    intro k m h hk hu hm hh
    unfold loadPrimary
    rw [lastOf_unique (listed_mem hk) (fun j hj => hu j (hduMap_listed _ _ _ hj))]
    have : (contains m c!"HEADER" && !(names f).contains m) = false := by
      rw [Bool.and_eq_false_iff]
      right
      simp only [Bool.not_eq_false', List.contains_iff_mem]
      exact hm
    simp only [this, objects, hh, Bool.false_eq_true, if_false]
    rw [headerOf_good (opened_good ho hh), bodyOf_eq]
  have hstep : ∀ (s : State (Obj B)) (k : Nat) (m : Str) (h : Hdu B), ListedAs (names f) k m →
      (∀ j, ListedAs (names f) j m → j = k) → m ∈ names f → f.hdus[k]? = some h → m ∈ s.index → s.attrs m = none → builtin m = false →
      ∃ s', Load.get (env f debug builtin meta') s m = (s', .value (some (data h))) ∧
        (∀ x, s'.attrs x = if x = m then some (some (data h)) else if x = m ++ c!"_HEADER" then some (some (.header (header h.cards)))
          else s.attrs x) ∧ (∀ x ∈ s.index, x ∈ s'.index) := by
    intro s k m h hk hu hm hh hx h0 hbm
    have hask : (env f debug builtin meta').ask s.asked m =
        .objs [(m ++ c!"_HEADER", some (.header (header h.cards))), (m, some (data h))] := by
      simp only [env, hload k m h hk hu hm hh, outcome, List.map_cons, List.map_nil]
    have hnl : loaded (env f debug builtin meta') s m = false := by
      unfold loaded
      rw [h0]
      simp [env, hbm]
    obtain ⟨h1, h2⟩ := (C18_load_other (env f debug builtin meta') s m false (by simp [env]) hx
      (fun h => by rw [hnl] at h; cases h)).1 _ hask
    have hne : m ++ c!"_HEADER" ≠ m := by
      intro h
      have := congrArg List.length h
      simp at this
    have hat : ∀ x, (load (env f debug builtin meta') s m false).1.attrs x = if x = m then some (some (data h))
        else if x = m ++ c!"_HEADER" then some (some (.header (header h.cards))) else s.attrs x := by
      intro x
      rw [h2 x]
      by_cases hx1 : x = m
      · rw [if_pos hx1, hx1, given_cons_other _ _ _ _ hne, given_cons_self]
        simp [given]
      · rw [if_neg hx1]
        by_cases hx2 : x = m ++ c!"_HEADER"
        · rw [if_pos hx2, hx2, given_cons_self, given_cons_other _ _ _ _ (fun h => hne h.symm)]
          simp [given]
        · rw [if_neg hx2, given_cons_other _ _ _ _ (fun h => hx2 h.symm), given_cons_other _ _ _ _ (fun h => hx1 h.symm)]
          simp [given]
    refine ⟨(load (env f debug builtin meta') s m false).1, C18_get_loads _ s m hbm hx h0 _ h1 (by rw [hat m, if_pos rfl]), hat, ?_⟩
    intro x hx
    exact Grows.mem (load_frame (env f debug builtin meta') s m false).1 hx
  have h0 := ((C84_names f).2 s0 ho).1
  obtain ⟨s1, g1, a1, i1⟩ := hstep s0 j _ b hj huj hmj hb ((opened_index ho _).mpr ⟨j, hj⟩) (h0 _) hbh
  have hne1 : n ≠ n ++ c!"_HEADER" := by
    intro h
    have := congrArg List.length h
    simp at this
  have hne2 : n ≠ n ++ c!"_HEADER" ++ c!"_HEADER" := by
    intro h
    have := congrArg List.length h
    simp at this
  obtain ⟨s2, g2, a2, _⟩ := hstep s1 i n a hi hui hmi ha (i1 _ ((opened_index ho _).mpr ⟨i, hi⟩))
    (by rw [a1 n, if_neg hne1, if_neg hne2]; exact h0 n) hbn
  refine ⟨s1, s2, g1, g2, ?_⟩
  unfold Load.get
  rw [if_neg (by simp [env, hbh]), a2, if_neg (fun h => hne1 h.symm), if_pos rfl]

/-- **C85 (limit).** PDS4: if the header before an array has, up to spaces, the name the array is listed by, then loading the array gives the
header only, and the array cannot be had. -/
theorem C85_pds4_replaced (f : File B) (hp : Placed f) (a : List Struct) (t : Struct) (b : List Struct) (s : Struct) (i : Nat) (h : Hdu B)
    (hh : f.hdus[i]? = some h) (hs : s.isHeader = false) (ho : s.offset = h.datLoc) (hne : ∀ g ∈ f.hdus, g.hdrLoc ≠ h.datLoc)
    (ha : ∀ t ∈ a, ¬ EndsAt s.offset t) (ht : EndsAt s.offset t) (n : Str) (hn : t.name = some n) (hk : underscored n = s.key) :
    loadPds4 f (a ++ t :: b) s = .ok [(s.key, .header (headerOf f i h))] := by
  have e := (C84_by_byte f hp s.key).2.1 i h hh hne
  unfold loadPds4
  rw [headerId_first a t b _ ha ht, ho, e]
  simp only [hs, Bool.false_eq_true, if_false, hn, Option.map_some, hk]
  have h0 : s.key ≠ s.key ++ c!"_HEADER" := by
    intro h
    have := congrArg List.length h
    simp at this
  unfold rename
  simp [h0]

end Verif.Fits
