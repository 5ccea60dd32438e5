/-
C78, C79: the objects of a PDS3 product.
-/
import Verif.Spec.Objects
import Verif.Lemmas.Rename
import Verif.Props.Objects

namespace Verif.Objects
open Verif.Py Verif.Pvl Verif.Objects.Spec

-- specifications are elaborated with the instance of the core library
attribute [-instance] List.decidableInfix

variable {α : Type}

mutual
theorem keysIn_eq (pred : Str → Bool) (t : Pvl.Tree α) : digKeysT pred t = (keysIn t).filter pred := by
  match t with
  | .leaf _ => simp [digKeysT, keysIn]
  | .node kids => rw [digKeysT, keysIn, List.filter_append, keysWithin_eq pred kids]
theorem keysWithin_eq (pred : Str → Bool) (t : MDict α) : digKeysNested pred t = (keysWithin t).filter pred := by
  match t with
  | [] => simp [digKeysNested, keysWithin]
  | (_, v) :: rest => rw [digKeysNested, keysWithin, List.filter_append, keysIn_eq pred v, keysWithin_eq pred rest]
end

theorem keysOf_eq (pred : Str → Bool) (t : MDict α) : digKeys pred t = (keysOf t).filter pred := by
  have h := keysIn_eq pred (.node t)
  rw [digKeysT] at h
  exact h

mutual
theorem entriesIn_eq (key : Str) (t : Pvl.Tree α) : digValuesT key t = ((entriesIn t).filter (fun e => e.1 == key)).map Prod.snd := by
  match t with
  | .leaf _ => simp [digValuesT, entriesIn]
  | .node kids => rw [digValuesT, entriesIn, List.filter_append, List.map_append, entriesWithin_eq key kids]
theorem entriesWithin_eq (key : Str) (t : MDict α) : digValuesNested key t = ((entriesWithin t).filter (fun e => e.1 == key)).map Prod.snd := by
  match t with
  | [] => simp [digValuesNested, entriesWithin]
  | (_, v) :: rest =>
    rw [digValuesNested, entriesWithin, List.filter_append, List.map_append, entriesIn_eq key v, entriesWithin_eq key rest]
end

theorem blockOf_eq : @blockOf α = blockFor := by
  funext label params name
  unfold blockOf blockFor
  by_cases h : name ∈ params
  · rw [if_neg (fun hc => List.count_eq_zero.1 hc h), if_pos h]
    unfold Meta.blockInterior digValue
    have h1 : digValues name label = ((entriesIn (.node label)).filter (fun e => e.1 == name)).map Prod.snd := by
      rw [← entriesIn_eq]
      rfl
    have h2 : (entriesIn (.node label)).find? (fun e => e.1 = name) = ((entriesIn (.node label)).filter (fun e => e.1 == name)).head? := by
      rw [List.head?_filter]
      congr 1
      exact funext fun e => (beq_eq_decide _ _).symm
    rw [h1, h2, List.head?_map]
    cases ((entriesIn (.node label)).filter (fun e => e.1 == name)).head? with
    | none => rfl
    | some e =>
      obtain ⟨k, v⟩ := e
      cases v <;> rfl
  · rw [if_pos (List.count_eq_zero.2 h), if_neg h]

theorem trivial_iff (p : Str) : Dispatch.isTrivial p = true ↔ Hidden p := by
  unfold Dispatch.isTrivial Hidden
  simp only [Bool.or_eq_true, Bool.and_eq_true, Bool.not_eq_true', ← Bool.not_eq_true, contains_iff', and_assoc, or_assoc]

open Classical in
/-- objects of a list of keys -/
theorem objects_eq (ks : List Str) : Dispatch.objectNames ((ks.filter (fun k => startsWith k c!"^")).map depointerize) = objectsOf ks := by
  induction ks with
  | nil => rfl
  | cons k ks ih =>
    unfold Dispatch.objectNames at ih ⊢
    cases k with
    | nil => simpa [objectsOf, startsWith] using ih
    | cons c r =>
      by_cases hc : c = '^'
      · subst hc
        have hs : startsWith ('^' :: r) c!"^" = true := (startsWith_iff _ _).2 ⟨r, rfl⟩
        rw [List.filter_cons_of_pos (by simpa using hs), List.map_cons, depointerize_caret]
        by_cases ht : Hidden r
        · rw [List.filter_cons_of_neg (by simpa using (trivial_iff r).2 ht), ih]
          simp [objectsOf, ht]
        · rw [List.filter_cons_of_pos (by rw [Bool.not_eq_true', ← Bool.not_eq_true, trivial_iff]; exact ht), ih]
          simp [objectsOf, ht]
      · have hs : startsWith (c :: r) c!"^" ≠ true := fun h => by
          obtain ⟨r', hr'⟩ := (startsWith_iff _ _).1 h
          exact hc (by simpa using congrArg List.head? hr')
        rw [List.filter_cons_of_neg (by simpa using hs), ih]
        simp [objectsOf, hc]

theorem objects_names (label : MDict α) : Dispatch.objectNames ((pointers label).map depointerize) = objects label := by
  unfold objects pointers
  rw [keysOf_eq, objects_eq]

theorem isWord_iff (c : Char) : isWord c = true ↔ c.isAlphanum = true ∨ c = '_' := by
  unfold isWord
  rw [Bool.or_eq_true, decide_eq_true_eq]

theorem structurePointer_iff (key : Str) : structurePointer key = true ↔ StructureKey key := by
  unfold structurePointer StructureKey
  split
  · rename_i t
    by_cases ht : t = c!"STRUCTURE"
    · rw [if_pos ht]
      simp [ht]
    · rw [if_neg ht]
      simp only [Bool.and_eq_true, decide_eq_true_eq, List.all_eq_true, isWord_iff]
      constructor
      · rintro ⟨⟨h1, h2⟩, h3⟩
        right
        unfold endsWith at h1
        rw [List.isSuffixOf_iff_suffix] at h1
        obtain ⟨w, hw⟩ := h1
        have hl := congrArg List.length hw
        rw [List.length_append] at hl
        have e : t.take (t.length - c!"_STRUCTURE".length) = w := by
          rw [← hw, List.length_append, Nat.add_sub_cancel]
          exact List.take_left
        rw [e] at h3
        exact ⟨w, fun h => by rw [h] at hl; simp at hl h2; omega, h3, by rw [hw]⟩
      · rintro (h | ⟨w, h1, h2, h3⟩)
        · exact absurd (List.cons.inj h).2 ht
        · obtain rfl := (List.cons.inj h3).2
          refine ⟨⟨?_, ?_⟩, ?_⟩
          · unfold endsWith
            rw [List.isSuffixOf_iff_suffix]
            exact ⟨w, rfl⟩
          · rw [List.length_append]
            have := List.length_pos_iff.2 h1
            omega
          · rw [List.length_append, Nat.add_sub_cancel, List.take_left]
            exact h2
  · rename_i hne
    constructor
    · intro h
      cases h
    · rintro (h | ⟨w, _, _, h⟩)
      · exact absurd h (hne _)
      · exact absurd h (hne _)

open Classical in
theorem spointers_eq (block : MDict α) : (block.map Prod.fst).filter structurePointer = structureKeys block := by
  unfold structureKeys
  refine List.filter_congr (fun k _ => ?_)
  rw [Bool.eq_iff_iff, structurePointer_iff, decide_eq_true_eq]

theorem emptyPrefix_iff (E : Env α) (block : MDict α) : emptyPrefix E block = true ↔ NoPrefix E block := by
  unfold emptyPrefix NoPrefix
  constructor
  · intro h
    split at h
    · rename_i k a hf
      obtain ⟨h1, before, after, h2, h3⟩ := List.find?_eq_some_iff_append.1 hf
      have hk : k = c!"^LINE_PREFIX_STRUCTURE" := by simpa using h1
      subst hk
      exact ⟨before, a, after, h2, h, fun kv hkv => by simpa using h3 kv hkv⟩
    · cases h
  · rintro ⟨before, a, after, rfl, h, hb⟩
    have : (before ++ (c!"^LINE_PREFIX_STRUCTURE", Pvl.Tree.leaf a) :: after).find? (fun kv => kv.1 = c!"^LINE_PREFIX_STRUCTURE") =
        some (c!"^LINE_PREFIX_STRUCTURE", .leaf a) := by
      rw [List.find?_append, List.find?_eq_none.2 (fun kv hkv => by simpa using hb kv hkv)]
      simp
    rw [this]
    exact h

theorem label_pre : contains c!"LABEL" c!"LINE_PREFIX" = false := by decide +kernel
theorem label_image : contains c!"LABEL" c!"IMAGE" = false := by decide +kernel

open Classical in
/-- images of a list -/
theorem images_eq (names : List Str) : (c!"LABEL" :: names).filter (fun n => contains n c!"IMAGE" && !contains n c!"TABLE") = imagesOf names := by
  rw [List.filter_cons_of_neg (by rw [label_image]; decide)]
  unfold imagesOf
  refine List.filter_congr (fun k _ => ?_)
  rw [Bool.eq_iff_iff, decide_eq_true_eq, Bool.and_eq_true, Bool.not_eq_true', ← Bool.not_eq_true, contains_iff', contains_iff']
  rfl

open Classical in
theorem associate_plain (E : Env α) (label : MDict α) (params : List Str) (image : Str) (p : Product3)
    (h : ∀ b, blockFor label params image = some b → (structureKeys b).length ≤ 1) :
    associate E label params [] image p = .ok (if Prefixed E label params image then addPrefix image p else p) := by
  unfold associate
  rw [blockOf_eq]
  cases hb : blockFor label params image with
  | none =>
    rw [if_neg]
    rintro ⟨b, h1, _⟩
    rw [hb] at h1
    cases h1
  | some block =>
    simp only [spointers_eq]
    have h1 := h block hb
    by_cases h0 : (structureKeys block).length = 0
    · rw [if_pos h0, if_neg]
      rintro ⟨b, h2, h3, _⟩
      rw [hb] at h2
      cases h2
      omega
    · rw [if_neg h0, if_neg (by omega), if_pos trivial]
      congr 1
      by_cases he : NoPrefix E block
      · rw [if_pos ((emptyPrefix_iff E block).2 he), if_neg]
        rintro ⟨b, h2, _, h4⟩
        rw [hb] at h2
        cases h2
        exact h4 he
      · rw [if_neg (fun h => he ((emptyPrefix_iff E block).1 h)), if_pos ⟨block, hb, by omega, he⟩]

open Classical in
theorem associateAll_plain (E : Env α) (label : MDict α) (params : List Str) (images : List Str) (p : Product3)
    (h : ∀ image ∈ images, ∀ b, blockFor label params image = some b → (structureKeys b).length ≤ 1) :
    associateAll E label params [] images p = .ok
      { p with
        index := p.index ++ (images.filter (fun i => Prefixed E label params i)).map tableName
        interleaved := p.interleaved ++ (images.filter (fun i => Prefixed E label params i)).map (fun i => (tableName i, i)) } := by
  induction images generalizing p with
  | nil => simp [associateAll]
  | cons image images ih =>
    rw [associateAll, associate_plain E label params image p (h image List.mem_cons_self)]
    simp only
    rw [ih _ (fun i hi => h i (List.mem_cons_of_mem _ hi))]
    by_cases hp : Prefixed E label params image
    · simp [hp, addPrefix, tableName]
    · simp [hp]

open Classical in
theorem pres_eq (label : MDict α) (params : List Str) (names : List Str) :
    (c!"LABEL" :: names).filter (fun n => contains n c!"LINE_PREFIX" && (blockFor label params n).isNone) =
    names.filter (fun n => decide (c!"LINE_PREFIX" <:+: n ∧ blockFor label params n = none)) := by
  rw [List.filter_cons_of_neg (by rw [label_pre, Bool.false_and]; decide)]
  refine List.filter_congr (fun k _ => ?_)
  rw [Bool.eq_iff_iff, decide_eq_true_eq, Bool.and_eq_true, contains_iff', Option.isNone_iff_eq_none]

theorem open3_eq (E : Env α) (label : MDict α) (params : List Str) :
    openPds3 E label params = associateAll E label params (loose label params) (imagesOf (objects label))
      ⟨c!"LABEL" :: objects label, [c!"LABEL"], []⟩ := by
  unfold openPds3
  rw [blockOf_eq]
  simp only [objects_names, images_eq, pres_eq]
  rfl

open Classical in
/-- **C78**: If all objects for what comes before lines have their own blocks and the block of no image has several structure
pointers, the opened product lists LABEL, the objects that the label's pointers are for (first those of a block, then those of the
blocks in it) except TIFF tags, structures and PDS_OBJECTs, and a table for every image whose block has a structure pointer (unless
`^LINE_PREFIX_STRUCTURE` is the empty text); each of these tables is known to be in the lines of its image. -/
theorem C78_pds3_objects (E : Env α) (label : MDict α) (params : List Str)
    (hpre : ∀ name ∈ objects label, c!"LINE_PREFIX" <:+: name → blockFor label params name ≠ none)
    (hone : ∀ name ∈ objects label, IsImage name → ∀ b, blockFor label params name = some b → (structureKeys b).length ≤ 1) :
    ∃ p, openPds3 E label params = .ok p ∧
      p.index = c!"LABEL" :: (objects label ++ ((imagesOf (objects label)).filter (fun i => Prefixed E label params i)).map tableName) ∧
      p.interleaved = ((imagesOf (objects label)).filter (fun i => Prefixed E label params i)).map (fun i => (tableName i, i)) := by
  have hl : loose label params = [] := by
    unfold loose
    rw [List.filter_eq_nil_iff]
    intro n hn h
    rw [decide_eq_true_eq] at h
    exact hpre n hn h.1 h.2
  rw [open3_eq, hl, associateAll_plain]
  · exact ⟨_, rfl, rfl, rfl⟩
  · intro image hi
    unfold imagesOf at hi
    rw [List.mem_filter, decide_eq_true_eq] at hi
    exact hone image hi.1 hi.2

theorem associate_many (E : Env α) (label : MDict α) (params pres : List Str) (image : Str) (p : Product3) (b : MDict α)
    (hb : blockFor label params image = some b) (h2 : 2 ≤ (structureKeys b).length) :
    associate E label params pres image p = .error .notImplemented := by
  unfold associate
  rw [blockOf_eq]
  rw [hb]
  simp only [spointers_eq]
  rw [if_neg (by omega), if_pos (by omega)]

theorem associateAll_many (E : Env α) (label : MDict α) (params pres : List Str) (images : List Str) (p : Product3)
    (h : ∃ image ∈ images, ∃ b, blockFor label params image = some b ∧ 2 ≤ (structureKeys b).length) :
    ∃ e, associateAll E label params pres images p = .error e ∧ (pres = [] → e = .notImplemented) := by
  induction images generalizing p with
  | nil =>
    obtain ⟨i, hi, _⟩ := h
    cases hi
  | cons image images ih =>
    by_cases h1 : ∃ b, blockFor label params image = some b ∧ 2 ≤ (structureKeys b).length
    · obtain ⟨b, hb, h2⟩ := h1
      exact ⟨_, by rw [associateAll, associate_many E label params pres image p b hb h2], fun _ => rfl⟩
    · have h' : ∃ image ∈ images, ∃ b, blockFor label params image = some b ∧ 2 ≤ (structureKeys b).length := by
        obtain ⟨i, hi, hb⟩ := h
        rcases List.mem_cons.1 hi with rfl | hi
        · exact absurd hb h1
        · exact ⟨i, hi, hb⟩
      rw [associateAll]
      cases ha : associate E label params pres image p with
      | error e =>
        refine ⟨e, rfl, ?_⟩
        rintro rfl
        rw [associate_plain E label params image p (fun b hb => by
          by_contra hc
          exact h1 ⟨b, hb, by omega⟩)] at ha
        cases ha
      | ok p' => exact ih p' h'

open Classical in
/-- **C79** (limit): if the block of one image has two structure pointers (prefix and suffix, say), the product cannot be opened -/
theorem C79_two_structures (E : Env α) (label : MDict α) (params : List Str) (image : Str) (h : image ∈ objects label) (hi : IsImage image)
    (b : MDict α) (hb : blockFor label params image = some b) (h2 : 2 ≤ (structureKeys b).length) :
    ∃ e, openPds3 E label params = .error e ∧ (loose label params = [] → e = .notImplemented) := by
  rw [open3_eq]
  refine associateAll_many E label params _ _ _ ⟨image, ?_, b, hb, h2⟩
  unfold imagesOf
  rw [List.mem_filter, decide_eq_true_eq]
  exact ⟨h, hi⟩

theorem attach_all (E : Env α) (n : Nat) (hs : E.start = .ok n) (image : Str) (pres : List Str) (p : Product3) (any : Bool)
    (hm : c!"IMAGE" ∈ p.mapped) :
    ∃ p', attach E image n pres p any = .ok (p', any || !pres.isEmpty) ∧ c!"IMAGE" ∈ p'.mapped ∧ p'.index = p.index ∧
      p'.interleaved = p.interleaved ++ pres.map (fun pre => (pre, image)) := by
  induction pres generalizing p any with
  | nil => exact ⟨p, by simp [attach], hm, rfl, by simp⟩
  | cons pre pres ih =>
    have hst : standalone E p.mapped pre = ((standalone E p.mapped pre).1, .ok n) ∧ c!"IMAGE" ∈ (standalone E p.mapped pre).1 := by
      unfold standalone
      by_cases hc : pre ∉ p.mapped ∧ E.found pre = true
      · simp only [if_pos hc]
        rw [if_pos (List.mem_cons_of_mem _ hm), hs]
        exact ⟨rfl, List.mem_cons_of_mem _ hm⟩
      · simp only [if_neg hc]
        rw [if_pos hm, hs]
        exact ⟨rfl, hm⟩
    rw [attach, hst.1]
    simp only [if_true]
    obtain ⟨p', h1, h2, h3, h4⟩ := ih { p with mapped := (standalone E p.mapped pre).1, interleaved := p.interleaved ++ [(pre, image)] } true hst.2
    refine ⟨p', ?_, h2, h3, ?_⟩
    · simpa using h1
    · simpa using h4

theorem oneStructure_of {label : MDict α} {params : List Str} {image : Str} {b : MDict α} (hb : blockFor label params image = some b) :
    OneStructure label params image ↔ (structureKeys b).length = 1 := by
  constructor
  · rintro ⟨c, hc, h⟩
    rw [hb] at hc
    cases hc
    exact h
  · exact fun h => ⟨b, hb, h⟩

theorem associate_none (E : Env α) (label : MDict α) (params pres : List Str) (image : Str) (p : Product3)
    (hone : ∀ b, blockFor label params image = some b → (structureKeys b).length ≤ 1) (h : ¬ OneStructure label params image) :
    associate E label params pres image p = .ok p := by
  unfold associate
  rw [blockOf_eq]
  cases hb : blockFor label params image with
  | none => rfl
  | some b =>
    have := hone b hb
    rw [oneStructure_of hb] at h
    simp only [spointers_eq]
    rw [if_pos (by omega)]

theorem associate_image (E : Env α) (n : Nat) (hs : E.start = .ok n) (label : MDict α) (params pres : List Str) (hp : pres ≠ []) (image : Str)
    (p : Product3) (hm : c!"IMAGE" ∈ p.mapped ∨ (image = c!"IMAGE" ∧ E.found c!"IMAGE" = true)) (h : OneStructure label params image) :
    ∃ p', associate E label params pres image p = .ok p' ∧ c!"IMAGE" ∈ p'.mapped ∧ p'.index = p.index ∧
      p'.interleaved = p.interleaved ++ pres.map (fun pre => (pre, image)) := by
  have hst : standalone E p.mapped image = ((standalone E p.mapped image).1, .ok n) ∧ c!"IMAGE" ∈ (standalone E p.mapped image).1 := by
    unfold standalone
    by_cases hc : image ∉ p.mapped ∧ E.found image = true
    · have : c!"IMAGE" ∈ image :: p.mapped := by
        rcases hm with hm | ⟨rfl, _⟩
        · exact List.mem_cons_of_mem _ hm
        · exact List.mem_cons_self
      simp only [if_pos hc]
      rw [if_pos this, hs]
      exact ⟨rfl, this⟩
    · have : c!"IMAGE" ∈ p.mapped := by
        rcases hm with hm | ⟨rfl, h2⟩
        · exact hm
        · by_contra hcon
          exact hc ⟨hcon, h2⟩
      simp only [if_neg hc]
      rw [if_pos this, hs]
      exact ⟨rfl, this⟩
  obtain ⟨p', h1, h2, h3, h4⟩ := attach_all E n hs image pres { p with mapped := (standalone E p.mapped image).1 } false hst.2
  refine ⟨p', ?_, h2, h3, h4⟩
  obtain ⟨b, hb, hl⟩ := h
  unfold associate
  rw [blockOf_eq]
  rw [hb]
  simp only [spointers_eq]
  rw [if_neg (by omega), if_neg (by omega), if_neg hp, hst.1]
  simp only
  rw [h1]
  have : pres.isEmpty = false := by simpa using hp
  simp [this]

open Classical in
theorem associateAll_loose (E : Env α) (n : Nat) (hs : E.start = .ok n) (label : MDict α) (params pres : List Str) (hp : pres ≠ [])
    (images : List Str) (hone : ∀ image ∈ images, ∀ b, blockFor label params image = some b → (structureKeys b).length ≤ 1)
    (p : Product3) (hm : c!"IMAGE" ∈ p.mapped ∨ (E.found c!"IMAGE" = true ∧
      (images.filter (fun i => OneStructure label params i)).head? = some c!"IMAGE")) :
    ∃ p', associateAll E label params pres images p = .ok p' ∧ p'.index = p.index ∧
      p'.interleaved = p.interleaved ++ (images.filter (fun i => OneStructure label params i)).flatMap (fun image => pres.map (fun pre => (pre, image))) := by
  induction images generalizing p with
  | nil => exact ⟨p, rfl, rfl, by simp⟩
  | cons image images ih =>
    rw [associateAll]
    by_cases h : OneStructure label params image
    · have hm' : c!"IMAGE" ∈ p.mapped ∨ (image = c!"IMAGE" ∧ E.found c!"IMAGE" = true) := by
        refine hm.imp_right (fun ⟨h1, h2⟩ => ⟨?_, h1⟩)
        rw [List.filter_cons_of_pos (by simpa using h)] at h2
        simpa using h2
      obtain ⟨p', h1, h2, h3, h4⟩ := associate_image E n hs label params pres hp image p hm' h
      obtain ⟨p'', h5, h6, h7⟩ := ih (fun i hi => hone i (List.mem_cons_of_mem _ hi)) p' (.inl h2)
      refine ⟨p'', ?_, h6.trans h3, ?_⟩
      · rw [h1]
        exact h5
      · rw [h7, h4, List.filter_cons_of_pos (by simpa using h), List.flatMap_cons, List.append_assoc]
    · rw [associate_none E label params pres image p (hone image List.mem_cons_self) h]
      rw [List.filter_cons_of_neg (by simpa using h)] at hm ⊢
      exact ih (fun i hi => hone i (List.mem_cons_of_mem _ hi)) p hm

open Classical in
theorem mem_imagesOf {names : List Str} {image : Str} (h : image ∈ imagesOf names) : image ∈ names ∧ IsImage image := by
  unfold imagesOf at h
  rw [List.mem_filter, decide_eq_true_eq] at h
  exact h

/-- **C79** (limit): Objects for what comes before lines that have no block are said to be in the lines of every image whose block has
a structure pointer, wherever they are in the file: to decide it, the start byte of IMAGE is compared with itself. (The last entry for
a name counts, so all are said to be in the last image.) The images get no tables of their own. -/
theorem C79_loose_prefixes (E : Env α) (n : Nat) (hs : E.start = .ok n) (label : MDict α) (params : List Str)
    (hone : ∀ name ∈ objects label, IsImage name → ∀ b, blockFor label params name = some b → (structureKeys b).length ≤ 1)
    (hl : loose label params ≠ []) (more : List Str) (hi : structured label params = c!"IMAGE" :: more) (hf : E.found c!"IMAGE" = true) :
    ∃ p, openPds3 E label params = .ok p ∧ p.index = c!"LABEL" :: objects label ∧
      p.interleaved = (structured label params).flatMap (fun image => (loose label params).map (fun pre => (pre, image))) := by
  rw [open3_eq]
  obtain ⟨p, h1, h2, h3⟩ := associateAll_loose E n hs label params (loose label params) hl (imagesOf (objects label))
    (fun image hi => hone image (mem_imagesOf hi).1 (mem_imagesOf hi).2) ⟨c!"LABEL" :: objects label, [c!"LABEL"], []⟩
    (.inr ⟨hf, by
      have := congrArg List.head? hi
      simpa [structured] using this⟩)
  exact ⟨p, h1, h2, by simpa [structured] using h3⟩

open Classical in
theorem associateAll_lost (E : Env α) (label : MDict α) (params pres : List Str) (hp : pres ≠ [])
    (images : List Str) (hone : ∀ image ∈ images, ∀ b, blockFor label params image = some b → (structureKeys b).length ≤ 1)
    (p : Product3) (hm : c!"IMAGE" ∉ p.mapped) (image : Str)
    (hf : (images.filter (fun i => OneStructure label params i)).head? = some image) (hi : image ≠ c!"IMAGE" ∨ E.found c!"IMAGE" = false) :
    associateAll E label params pres images p = .error .keyError := by
  induction images generalizing p with
  | nil => cases hf
  | cons i images ih =>
    rw [associateAll]
    by_cases h : OneStructure label params i
    · rw [List.filter_cons_of_pos (by simpa using h)] at hf
      obtain rfl : i = image := by simpa using hf
      have hst : (standalone E p.mapped i).2 = .error .keyError := by
        unfold standalone
        by_cases hc : i ∉ p.mapped ∧ E.found i = true
        · simp only [if_pos hc]
          rw [if_neg]
          intro hmem
          rcases List.mem_cons.1 hmem with h1 | h1
          · subst h1
            rcases hi with hi | hi
            · exact hi rfl
            · rw [hi] at hc
              cases hc.2
          · exact hm h1
        · simp only [if_neg hc]
          rw [if_neg hm]
      have hst' : standalone E p.mapped i = ((standalone E p.mapped i).1, .error .keyError) := Prod.ext rfl hst
      obtain ⟨b, hb, hl⟩ := h
      have : associate E label params pres i p = .error .keyError := by
        unfold associate
        rw [blockOf_eq, hb]
        simp only [spointers_eq]
        rw [if_neg (by omega), if_neg (by omega), if_neg hp, hst']
      rw [this]
    · rw [associate_none E label params pres i p (hone i List.mem_cons_self) h]
      rw [List.filter_cons_of_neg (by simpa using h)] at hf
      exact ih (fun i hi => hone i (List.mem_cons_of_mem _ hi)) p hm hf

/-- **C79** (limit): … and if the first image whose block has a structure pointer is not called IMAGE, or its file is not there, the
product cannot be opened at all: `KeyError` -/
theorem C79_no_image (E : Env α) (label : MDict α) (params : List Str)
    (hone : ∀ name ∈ objects label, IsImage name → ∀ b, blockFor label params name = some b → (structureKeys b).length ≤ 1)
    (hl : loose label params ≠ []) (image : Str) (more : List Str) (hi : structured label params = image :: more)
    (hf : image ≠ c!"IMAGE" ∨ E.found c!"IMAGE" = false) :
    openPds3 E label params = .error .keyError := by
  rw [open3_eq]
  refine associateAll_lost E label params _ hl _ (fun image hi => hone image (mem_imagesOf hi).1 (mem_imagesOf hi).2) _ (by simp) image ?_ hf
  have := congrArg List.head? hi
  simpa [structured] using this

/-! ### cases -/

/-- pointers to an image with a structure in its lines, one without, TIFF tags and a table -/
def demo3 : MDict Str :=
  [(c!"^IMAGE", .leaf c!"a.img"), (c!"^TIFF_TAGS", .leaf c!"a.tif"), (c!"^BROWSE_IMAGE", .leaf c!"b.img"),
   (c!"FILE", .node [(c!"^LINE_PREFIX_TABLE", .leaf c!"a.img"), (c!"LINE_PREFIX_TABLE", .node [])]),
   (c!"IMAGE", .node [(c!"^LINE_PREFIX_STRUCTURE", .leaf c!"p.fmt"), (c!"^MAP", .leaf c!"m.img")]), (c!"BROWSE_IMAGE", .node []),
   (c!"^SPECTRUM", .leaf c!"s.dat")]

/-- all files are there -/
def demoEnv3 : Env Str := ⟨fun a => decide (a = []), fun _ => true, .ok 77⟩

theorem demo3_objects : objects demo3 = [c!"IMAGE", c!"BROWSE_IMAGE", c!"SPECTRUM", c!"LINE_PREFIX_TABLE", c!"MAP"] := by
  rw [← objects_names]
  decide +kernel

example : ∃ p, openPds3 demoEnv3 demo3 (keysOf demo3) = .ok p ∧
    p.index = [c!"LABEL", c!"IMAGE", c!"BROWSE_IMAGE", c!"SPECTRUM", c!"LINE_PREFIX_TABLE", c!"MAP", c!"IMAGE_LINE_PREFIX_TABLE"] ∧
    p.interleaved = [(c!"IMAGE_LINE_PREFIX_TABLE", c!"IMAGE")] := by
  refine ⟨_, rfl, by decide +kernel, by decide +kernel⟩

/-- how many structure pointers the blocks of these objects have -/
def pointersAt (label : MDict α) (params : List Str) (name : Str) : Nat :=
  match blockFor label params name with
  | some b => ((b.map Prod.fst).filter structurePointer).length
  | none => 0

theorem pointersAt_le {label : MDict α} {params : List Str} {name : Str} (h : pointersAt label params name ≤ 1) (b : MDict α)
    (hb : blockFor label params name = some b) : (structureKeys b).length ≤ 1 := by
  unfold pointersAt at h
  rw [hb] at h
  rwa [← spointers_eq]

/-- it meets the assumptions -/
example : (∀ name ∈ objects demo3, c!"LINE_PREFIX" <:+: name → blockFor demo3 (keysOf demo3) name ≠ none) ∧
    (∀ name ∈ objects demo3, IsImage name → ∀ b, blockFor demo3 (keysOf demo3) name = some b → (structureKeys b).length ≤ 1) := by
  rw [demo3_objects]
  constructor
  · intro name hn hp
    rw [← contains_iff'] at hp
    have : ∀ name ∈ [c!"IMAGE", c!"BROWSE_IMAGE", c!"SPECTRUM", c!"LINE_PREFIX_TABLE", c!"MAP"], contains name c!"LINE_PREFIX" = true →
        (blockFor demo3 (keysOf demo3) name).isSome = true := by decide +kernel
    intro hb
    have h2 := this name hn hp
    rw [hb] at h2
    cases h2
  · intro name hn _
    refine pointersAt_le ?_
    have : ∀ name ∈ [c!"IMAGE", c!"BROWSE_IMAGE", c!"SPECTRUM", c!"LINE_PREFIX_TABLE", c!"MAP"], pointersAt demo3 (keysOf demo3) name ≤ 1 := by
      decide +kernel
    exact this name hn

/-- prefix and suffix: the product cannot be opened -/
example : openPds3 demoEnv3 [(c!"^IMAGE", .leaf c!"a.img"),
    (c!"IMAGE", .node [(c!"^LINE_PREFIX_STRUCTURE", .leaf c!"p.fmt"), (c!"^LINE_SUFFIX_STRUCTURE", .leaf c!"s.fmt")])]
    [c!"^IMAGE", c!"IMAGE", c!"^LINE_PREFIX_STRUCTURE", c!"^LINE_SUFFIX_STRUCTURE"] = .error .notImplemented := by
  rfl

/-- a prefix object without block, in another file -/
def loose3 (image : Str) : MDict Str :=
  [('^' :: image, .leaf c!"a.img"), (c!"^OTHER_IMAGE", .leaf c!"b.img"), (c!"^LINE_PREFIX_TABLE", .leaf c!"c.tab"),
   (image, .node [(c!"^LINE_STRUCTURE", .leaf c!"p.fmt")]), (c!"OTHER_IMAGE", .node [(c!"^STRUCTURE", .leaf c!"q.fmt")])]

/-- it is said to be in the lines of both images; the last one counts -/
example : ∃ p, openPds3 demoEnv3 (loose3 c!"IMAGE") (keysOf (loose3 c!"IMAGE")) = .ok p ∧
    p.index = [c!"LABEL", c!"IMAGE", c!"OTHER_IMAGE", c!"LINE_PREFIX_TABLE"] ∧
    p.interleaved = [(c!"LINE_PREFIX_TABLE", c!"IMAGE"), (c!"LINE_PREFIX_TABLE", c!"OTHER_IMAGE")] := by
  refine ⟨_, rfl, by decide +kernel, by decide +kernel⟩

/-- the first image has another name -/
example : openPds3 demoEnv3 (loose3 c!"RED_IMAGE") (keysOf (loose3 c!"RED_IMAGE")) = .error .keyError := by
  rfl

open Classical in
theorem structured_eq (label : MDict α) (params : List Str) : structured label params =
    (imagesOf (objects label)).filter (fun i => pointersAt label params i = 1) := by
  unfold structured
  refine List.filter_congr (fun k _ => ?_)
  rw [Bool.eq_iff_iff, decide_eq_true_eq, decide_eq_true_eq]
  unfold pointersAt
  cases hb : blockFor label params k with
  | none =>
    simp only [Nat.zero_ne_one, iff_false]
    rintro ⟨b, h1, _⟩
    rw [hb] at h1
    cases h1
  | some b => simp only [oneStructure_of hb, spointers_eq]

theorem loose_eq (label : MDict α) (params : List Str) : loose label params =
    (c!"LABEL" :: objects label).filter (fun n => contains n c!"LINE_PREFIX" && (blockFor label params n).isNone) := by
  rw [pres_eq]
  rfl

/-- it meets the assumptions -/
example : loose (loose3 c!"IMAGE") (keysOf (loose3 c!"IMAGE")) = [c!"LINE_PREFIX_TABLE"] ∧
    structured (loose3 c!"IMAGE") (keysOf (loose3 c!"IMAGE")) = [c!"IMAGE", c!"OTHER_IMAGE"] ∧
    (∀ name ∈ objects (loose3 c!"IMAGE"), ∀ b, blockFor (loose3 c!"IMAGE") (keysOf (loose3 c!"IMAGE")) name = some b →
      (structureKeys b).length ≤ 1) := by
  have ho : objects (loose3 c!"IMAGE") = [c!"IMAGE", c!"OTHER_IMAGE", c!"LINE_PREFIX_TABLE"] := by
    rw [← objects_names]
    decide +kernel
  refine ⟨?_, ?_, ?_⟩
  · rw [loose_eq, ho]
    decide +kernel
  · rw [structured_eq, ho, ← images_eq]
    decide +kernel
  · rw [ho]
    intro name hn
    refine pointersAt_le ?_
    have : ∀ name ∈ [c!"IMAGE", c!"OTHER_IMAGE", c!"LINE_PREFIX_TABLE"],
        pointersAt (loose3 c!"IMAGE") (keysOf (loose3 c!"IMAGE")) name ≤ 1 := by decide +kernel
    exact this name hn

end Verif.Objects
