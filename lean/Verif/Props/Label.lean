/-
C98, C99: reading a PDS3 label from a file: from bytes to metadata.
-/
import Verif.Lemmas.Utf8
import Verif.Props.Pvl
import Verif.Props.MultiDict
import Verif.Props.Trim
import Verif.Props.Value
import Verif.Props.Datatypes

namespace Verif.Label
open Verif.Py Verif.Pvl Verif.Pvl.Spec Verif.Literal Verif.Label.Spec

/-! ### text -/

/-- **C98.** Decoding gives back every text that was encoded in UTF-8, strictly or not; strictly, nothing else can be decoded; otherwise
everything can be, with U+FFFD for what is not UTF-8. -/
theorem C98_utf8 (s : Str) (b : Bytes) :
    (∀ strict, decodeUtf8 strict (utf8 s) = some s) ∧ (decodeUtf8 true b = some s ↔ b = utf8 s) ∧
    ∃ t, decodeUtf8 false b = some t ∧ Replaced b t :=
  ⟨fun strict => decode_utf8 strict s, ⟨strict_encodes b s, fun h => by rw [h]; exact decode_utf8 true s⟩, decode_replaced b⟩

theorem uncommented_strip {s t : Str} (h : Uncommented s t) : stripComments s = t := by
  induction h with
  | none h => exact stripComments_id _ h
  | comment ha h1 h2 h3 he _ ih => rw [C02_comment_removed _ _ _ _ he ha h1 h2 h3, ih]

theorem says_parse {text : Str} {t : MDict Str} (h : Says text t) : parseText text = (t, keys t, false) := by
  obtain ⟨phys, ls, ss, h1, h2, h3, h4⟩ := h
  unfold parseText
  rw [uncommented_strip h1, C02_statements h2 h3, C01_parse_stated h4]

/-! ### values -/

theorem means_literal {s : Str} {v : Val} (h : Means s v) : literalizePvl PyLit.litEval s = .ok v := by
  cases h with
  | value h => exact Value.C96_values _ _ h
  | words ho h hne hw => exact Value.C96_collections_of_words _ _ ho _ _ h hne hw
  | radixes ho hne h => exact Value.C96_collections_of_radix_integers _ _ ho _ _ hne h
  | quantity h hc hh => exact Value.C96_quantity _ _ h hc hh
  | quantities h2 h hq hc => exact Value.C96_sequences_with_quantities _ _ h h2 hq hc

mutual
theorem textsT_eq (t : Tree Str) : textsT t = mapLeavesT Val.str t := by
  match t with
  | .leaf s => rfl
  | .node kids => simp [textsT, mapLeavesT, texts_eq kids]
theorem texts_eq (t : MDict Str) : texts t = mapLeaves Val.str t := by
  match t with
  | [] => rfl
  | (k, t) :: rest => simp [texts, mapLeaves, textsT_eq t, texts_eq rest]
end

mutual
theorem mapLeavesT_comp {α β γ : Type} (f : α → β) (g : β → γ) (t : Tree α) : mapLeavesT g (mapLeavesT f t) = mapLeavesT (fun a => g (f a)) t := by
  match t with
  | .leaf s => rfl
  | .node kids => simp [mapLeavesT, mapLeaves_comp f g kids]
theorem mapLeaves_comp {α β γ : Type} (f : α → β) (g : β → γ) (t : MDict α) : mapLeaves g (mapLeaves f t) = mapLeaves (fun a => g (f a)) t := by
  match t with
  | [] => rfl
  | (k, t) :: rest => simp [mapLeaves, mapLeavesT_comp f g t, mapLeaves_comp f g rest]
end

theorem block_values {t : MDict Str} {g : Str → Val} (h : ∀ s ∈ leaves t, Means s (g s)) :
    literalizeBlock literalizeVal (texts t) = .ok (mapLeaves g t) := by
  obtain ⟨t', h1, rfl, -⟩ := C03_literalize_maps_leaves literalizeVal
    (fun v => match v with | .str s => g s | v => v) (texts t) (by
      intro a ha
      rw [texts_eq, leaves_mapLeaves, List.mem_map] at ha
      obtain ⟨s, hs, rfl⟩ := ha
      exact means_literal (h s hs))
  rw [h1, texts_eq, mapLeaves_comp]

/-! ### from text to metadata -/

/-- **C98.** A label's text becomes the tree it says, with the values its texts mean, and the list of all its keys. -/
theorem C98_label_text (text : Str) (t : MDict Str) (g : Str → Val) (dedup : Bool) (h : Says text t) (hg : ∀ s ∈ leaves t, Means s (g s))
    (hd : dedup = true → ∀ r, (keys t).count ('^' :: r) ≤ 1 ∨ c!"STRUCTURE" <:+: r ∨ c!"PDS_OBJECT" <:+: r) : parsePvl text dedup = .ok (mapLeaves g t, keys t) := by
  unfold parsePvl
  rw [says_parse h]
  have hi : (if dedup then indexDuplicatePointers t (keys t) else .ok (t, keys t)) = .ok (t, keys t) := by
    cases dedup with
    | false => rfl
    | true => exact C05_no_duplicates_unchanged t (keys t) (hd rfl)
  simp only [hi, block_values hg]

mutual
theorem leavesT_skeletonT {α : Type} (t : Tree α) : leavesT (skeletonT t) = leavesT t := by
  match t with
  | .leaf s => rfl
  | .node kids => simp only [skeletonT, leavesT]; exact leaves_skeleton kids
theorem leaves_skeleton {α : Type} (t : MDict α) : leaves (skeleton t) = leaves t := by
  match t with
  | [] => rfl
  | (k, t) :: rest => simp only [skeleton, leaves, leavesT_skeletonT t, leaves_skeleton rest]
end

mutual
theorem skeletonT_mapLeavesT {α β : Type} (g : α → β) (t : Tree α) : skeletonT (mapLeavesT g t) = mapLeavesT g (skeletonT t) := by
  match t with
  | .leaf s => rfl
  | .node kids => simp [skeletonT, mapLeavesT, skeleton_mapLeaves g kids]
theorem skeleton_mapLeaves {α β : Type} (g : α → β) (t : MDict α) : skeleton (mapLeaves g t) = mapLeaves g (skeleton t) := by
  match t with
  | [] => rfl
  | (k, t) :: rest => simp [skeleton, mapLeaves, skeletonT_mapLeavesT g t, skeleton_mapLeaves g rest]
end

/-- **C98.** With duplicate pointers: the same, with the pointers and the objects they point to numbered (`T` lists their names). -/
theorem C98_duplicate_pointers (text : Str) (t : MDict Str) (g : Str → Val) (h : Says text t) (hg : ∀ s ∈ leaves t, Means s (g s))
    (hc : NoClash (keys t)) (he : EnoughPointers (keys t)) (T : List Str) (hT : ∀ x, x ∈ T ↔ IsTarget (keys t) x) :
    ∃ m params, parsePvl text true = .ok (m, params) ∧ keys m = numberAll T [] (keys t) ∧ skeleton m = skeleton (mapLeaves g t) ∧
      ∀ k ∈ keys m, k ∈ params := by
  obtain ⟨⟨t', params⟩, h1⟩ := ((C05_fails_iff_too_many_objects t (keys t) (List.Perm.refl _) hc).1).2 he
  obtain ⟨h2, h3⟩ := C05_duplicates_numbered t t' (keys t) params (List.Perm.refl _) hc T hT h1
  have hl : leaves t' = leaves t := by rw [← leaves_skeleton t', h3, leaves_skeleton]
  refine ⟨mapLeaves g t', params, ?_, ?_, ?_, ?_⟩
  · unfold parsePvl
    rw [says_parse h]
    simp only [if_true, h1, block_values (t := t') (g := g) (by rw [hl]; exact hg)]
  · rw [keys_mapLeaves, h2]
  · rw [skeleton_mapLeaves, skeleton_mapLeaves, h3]
  · rw [keys_mapLeaves]
    exact C05_parameter_list_covers t t' (keys t) params (List.Perm.refl _) hc h1

/-- **C99 (limit).** A label in which a duplicate pointer has more object definitions than the pointer occurs cannot be read. -/
theorem C99_too_many_objects (text : Str) (t : MDict Str) (h : Says text t) (hc : NoClash (keys t)) (he : ¬ EnoughPointers (keys t)) :
    parsePvl text true = .error .indexError := by
  have := ((C05_fails_iff_too_many_objects t (keys t) (List.Perm.refl _) hc).2).1 he
  unfold parsePvl
  rw [says_parse h]
  simp only [if_true, this]

/-- **C99 (limit).** One value that cannot be interpreted (a set in a set), anywhere in the label, makes the whole label unreadable. -/
theorem C99_one_bad_value (text : Str) (t : MDict Str) (h : Says text t) (s : Str) (hs : s ∈ leaves t) (e : PyErr)
    (hf : literalizePvl PyLit.litEval s = .error e) : ∃ e', parsePvl text false = .error e' := by
  obtain ⟨e', he'⟩ := (C03_literalize_fails_iff literalizeVal (texts t)).2 ⟨.str s, by
    rw [texts_eq, leaves_mapLeaves]; exact List.mem_map.2 ⟨s, hs, rfl⟩, e, hf⟩
  refine ⟨e', ?_⟩
  unfold parsePvl
  rw [says_parse h]
  simp only [Bool.false_eq_true, if_false, he']

/-! ### from files to metadata -/

theorem trim_part {f p : Bytes} {m : Int} {strict : Bool} (hh : Trim.Spec.HeadOk f strict) (h : LabelPart f m p) :
    Trim.trimBytes f m strict false = .ok p := by
  cases h with
  | ended h1 h2 h3 => exact Trim.C06_ending_found f m strict false _ _ hh h1 h2 h3
  | whole h1 h2 => rw [Trim.C06_no_ending f m strict false _ hh h1 h2]; rfl

theorem trim_decoded {d : Bool → Bytes → Option Str} {f p : Bytes} {m : Int} {strict : Bool} {text : Str} (hh : Trim.Spec.HeadOk f strict)
    (h : LabelPart f m p) (hd : d strict p = some text) : Trim.trimLabel d f m strict false = .ok text :=
  (Trim.C06_decoding d f m strict false text).2 ⟨p, trim_part hh h, hd⟩

theorem any_contains (fn : Str) (l : List Str) : l.any (contains fn) = true ↔ ∃ x ∈ l, x <:+: fn := by
  rw [List.any_eq_true]
  exact exists_congr fun x => and_congr_right fun _ => Datatypes.contains_iff fn x

theorem special_change (fn : Str) (h : ChangE fn) : specialEncoding fn = some (.gb18030, false) := by
  unfold specialEncoding
  rw [if_pos]
  rw [Bool.and_eq_true, any_contains, any_contains]
  exact h

theorem special_rest (fn : Str) (h : ¬ ChangE fn) : (VexMag fn → specialEncoding fn = some (.latin1, true)) ∧
    (¬ VexMag fn → specialEncoding fn = none) := by
  unfold specialEncoding
  rw [if_neg (by rw [Bool.and_eq_true, any_contains, any_contains]; exact h)]
  have : (contains fn c!".TAB" && contains fn c!"_DOY" && (contains fn c!"MAG_" || contains fn c!"BIO_") && contains fn c!"_V1") = true ↔ VexMag fn := by
    simp only [Bool.and_eq_true, Bool.or_eq_true, Datatypes.contains_iff, VexMag]
    tauto
  exact ⟨fun hv => by rw [if_pos (this.2 hv)], fun hv => by rw [if_neg (fun hh => hv (this.1 hh))]⟩

/-- **C98.** Reading a label file, or a file with a label at its beginning: if the label part of the file is the UTF-8 encoding of a text,
the file begins with ASCII characters, and it is not one of the special products, the result is that of the text. -/
theorem C98_label_file (gb : Bool → Bytes → Option Str) (fn : Str) (stream : Bytes) (dedup : Bool) (m : Int) (strict : Bool) (text : Str)
    (h1 : ¬ ChangE fn) (h2 : ¬ VexMag fn) (hh : ∀ b ∈ stream.take 20, b < 128) (hp : LabelPart stream m (utf8 text)) :
    readPvl gb fn stream dedup m strict = parsePvl text dedup := by
  unfold readPvl
  rw [(special_rest fn h1).2 h2]
  simp only [trim_decoded (d := decode gb .utf8) (strict := strict && !looksPvl fn) (fun _ => hh) hp (decode_utf8 _ text)]

/-- **C98.** Label files of Chang'e 1-3 products are decoded from GB 18030 and those of Venus Express magnetometer products from Latin-1. -/
theorem C98_special_encodings (gb : Bool → Bytes → Option Str) (fn : Str) (stream p : Bytes) (dedup : Bool) (m : Int) (strict : Bool) (text : Str)
    (hp : LabelPart stream (1000 * 1024) p) :
    (ChangE fn → gb false p = some text → readPvl gb fn stream dedup m strict = parsePvl text dedup) ∧
    (¬ ChangE fn → VexMag fn → (∀ b ∈ stream.take 20, b < 128) → p.map (fun b => Char.ofNat b.toNat) = text →
      readPvl gb fn stream dedup m strict = parsePvl text dedup) := by
  constructor
  · intro hc hg
    unfold readPvl
    rw [special_change fn hc]
    simp only [trim_decoded (d := decode gb .gb18030) (strict := false) (fun h => by cases h) (show LabelPart stream defaultLimit p from hp) hg]
  · intro hc hv hh ht
    unfold readPvl
    rw [(special_rest fn hc).1 hv]
    simp only [trim_decoded (d := decode gb .latin1) (strict := true) (text := text) (fun _ => hh) (show LabelPart stream defaultLimit p from hp)
      (by rw [← ht]; rfl)]

/-! ### names of label files -/

theorem lower_dot {ext : Str} {x : Str} (h : lower ext = '.' :: x) : ∃ y, ext = '.' :: y ∧ lower y = x := by
  cases ext with
  | nil => cases h
  | cons c y =>
    simp only [lower, List.map_cons, List.cons.injEq] at h
    refine ⟨y, ?_, h.2⟩
    have h1 := h.1
    unfold lowerC at h1
    split at h1
    · rename_i hc
      exfalso
      have e : (Char.ofNat (c.toNat + 32)).toNat = 46 := by rw [h1]; rfl
      rw [toNat_ofNat_char _ (Or.inl (by have : ('Z' : Char).toNat = 90 := rfl; omega))] at e
      have : ('A' : Char).toNat = 65 := rfl
      omega
    · rw [h1]

theorem lower_no {y : Str} {x : Str} (h : lower y = x) (d : Char) (hd : lowerC d = d) (hx : d ∉ x) : d ∉ y := by
  intro hm
  apply hx
  rw [← h]
  exact List.mem_map.2 ⟨d, hm, hd⟩

theorem suffix_of {dir name y : Str} (hd : dir = [] ∨ ∃ d, dir = d ++ ['/']) (hn : '/' ∉ name) (hne : name ≠ []) (hy : y ≠ []) (h1 : '/' ∉ y)
    (h2 : '.' ∉ y) : pathSuffix (dir ++ name ++ '.' :: y) = '.' :: y := by
  unfold pathSuffix
  have hr : (dir ++ name ++ '.' :: y).reverse = (y.reverse ++ '.' :: name.reverse) ++ dir.reverse := by simp
  have ht : (dir ++ name ++ '.' :: y).reverse.takeWhile (fun c => c != '/') = y.reverse ++ '.' :: name.reverse := by
    rw [hr, List.takeWhile_append_of_pos]
    · rcases hd with rfl | ⟨d, rfl⟩
      · simp
      · simp
    · intro c hc
      simp only [bne_iff_ne, ne_eq]
      rintro rfl
      rcases List.mem_append.1 hc with hc | hc
      · exact h1 (List.mem_reverse.1 hc)
      · rcases List.mem_cons.1 hc with hc | hc
        · exact absurd hc (by decide)
        · exact hn (List.mem_reverse.1 hc)
  rw [ht]
  have hy' : ∀ c ∈ y.reverse, (c != '.') = true := by
    intro c hc
    simp only [bne_iff_ne, ne_eq]
    rintro rfl
    exact h2 (List.mem_reverse.1 hc)
  have k1 : (y.reverse ++ '.' :: name.reverse).takeWhile (fun c => c != '.') = y.reverse := by
    rw [List.takeWhile_append_of_pos hy']; simp
  have k2 : (y.reverse ++ '.' :: name.reverse).dropWhile (fun c => c != '.') = '.' :: name.reverse := by
    rw [List.dropWhile_append_of_pos hy']; simp
  simp only [k1, k2, List.reverse_reverse]
  rw [if_neg]
  rintro (h | h)
  · exact hy (List.reverse_eq_nil_iff.1 h)
  · have := List.length_pos_iff.2 hne
    simp at h
    exact hne h

theorem looks_iff (fn : Str) : looksPvl fn = true ↔ LabelName fn := by
  constructor
  · intro h
    unfold looksPvl at h
    have hs : lower (pathSuffix fn) = c!".lbl" ∨ lower (pathSuffix fn) = c!".fmt" := by
      simpa using h
    unfold pathSuffix at hs
    generalize hr : fn.reverse.takeWhile (fun c => c != '/') = r at hs
    simp only at hs
    have hb : r.takeWhile (fun c => c != '.') ++ r.dropWhile (fun c => c != '.') = r := List.takeWhile_append_dropWhile
    split at hs
    · rcases hs with hs | hs <;> cases hs
    · rename_i hc
      rw [not_or] at hc
      have hd : fn = (fn.reverse.dropWhile (fun c => c != '/')).reverse ++ r.reverse := by
        rw [← hr, ← List.reverse_append, List.takeWhile_append_dropWhile, List.reverse_reverse]
      have hslash : '/' ∉ r := by
        intro hm
        rw [← hr] at hm
        have := List.mem_takeWhile_imp hm
        simp at this
      cases hbef : r.dropWhile (fun c => c != '.') with
      | nil => rw [hbef] at hc; simp at hc
      | cons d before =>
        have hdot : d = '.' := by
          have := List.head_dropWhile_not (fun c => c != '.') (l := r) (by rw [hbef]; simp)
          simp only [hbef, List.head_cons] at this
          simpa using this
        subst hdot
        rw [hbef] at hb hc
        refine ⟨(fn.reverse.dropWhile (fun c => c != '/')).reverse, before.reverse, '.' :: (r.takeWhile (fun c => c != '.')).reverse, ?_, ?_, ?_, ?_, hs⟩
        · conv => lhs; rw [hd, ← hb]
          simp
        · cases hdir : fn.reverse.dropWhile (fun c => c != '/') with
          | nil => exact Or.inl rfl
          | cons x xs =>
            right
            have : x = '/' := by
              have := List.head_dropWhile_not (fun c => c != '/') (l := fn.reverse) (by rw [hdir]; simp)
              simp only [hdir, List.head_cons] at this
              simpa using this
            exact ⟨xs.reverse, by simp [this]⟩
        · intro hm
          apply hslash
          rw [← hb]
          simp only [List.mem_append, List.mem_cons]
          exact Or.inr (Or.inr (List.mem_reverse.1 hm))
        · intro hh
          rw [List.reverse_eq_nil_iff] at hh
          rw [hh] at hc
          simp at hc
  · rintro ⟨dir, name, ext, rfl, hd, hn, hne, he⟩
    have key : ∀ x : Str, lower ext = '.' :: x → x ≠ [] → '/' ∉ x → '.' ∉ x → lower (pathSuffix (dir ++ name ++ ext)) = '.' :: x := by
      intro x hx h0 h1 h2
      obtain ⟨y, rfl, hy⟩ := lower_dot hx
      rw [suffix_of hd hn hne (by rintro rfl; exact h0 hy.symm) (lower_no hy '/' (by decide) h1) (lower_no hy '.' (by decide) h2)]
      exact hx
    unfold looksPvl
    rcases he with he | he
    · rw [key _ he (by decide) (by decide) (by decide)]; decide
    · rw [key _ he (by decide) (by decide) (by decide)]; decide

/-- **C98.** What is not UTF-8: a strict reading fails (as it does if the file begins with something else than ASCII characters), unless the file
has the name of a label or format file; otherwise what is not UTF-8 is replaced by U+FFFD. -/
theorem C98_not_utf8 (gb : Bool → Bytes → Option Str) (fn : Str) (stream p : Bytes) (dedup : Bool) (m : Int) (strict : Bool)
    (h1 : ¬ ChangE fn) (h2 : ¬ VexMag fn) (hp : LabelPart stream m p) :
    (strict = true → ¬ LabelName fn → ((¬ ∃ text, p = utf8 text) ∨ ∃ b ∈ stream.take 20, 128 ≤ b) →
      readPvl gb fn stream dedup m strict = .error .invalidLabel) ∧
    (strict = false ∨ LabelName fn → ∃ text, Replaced p text ∧ readPvl gb fn stream dedup m strict = parsePvl text dedup) := by
  constructor
  · intro hs hl hb
    have hk : (strict && !looksPvl fn) = true := by
      rw [hs]
      cases hx : looksPvl fn with
      | false => rfl
      | true => exact absurd ((looks_iff fn).1 hx) hl
    have : Trim.trimLabel (decode gb .utf8) stream m true false = .error .invalidLabel := by
      by_cases hh : ∀ b ∈ stream.take 20, b < 128
      · have hu : ¬ ∃ text, p = utf8 text := by
          rcases hb with hb | ⟨b, hb, hb'⟩
          · exact hb
          · exact absurd (hh b hb) (UInt8.not_lt.2 hb')
        unfold Trim.trimLabel
        rw [trim_part (fun _ => hh) hp]
        cases hd : decode gb .utf8 true p with
        | none => simp [hd]
        | some s => exact absurd ⟨s, strict_encodes p s hd⟩ hu
      · unfold Trim.trimLabel Trim.trimBytes
        rw [if_pos]
        push Not at hh
        obtain ⟨b, hb1, hb2⟩ := hh
        simp only [Bool.true_and, List.any_eq_true, decide_eq_true_eq]
        exact ⟨b, hb1, UInt8.not_lt.1 hb2⟩
    unfold readPvl
    rw [(special_rest fn h1).2 h2]
    simp only [hk, this]
  · intro hl
    have hk : (strict && !looksPvl fn) = false := by
      rcases hl with rfl | hl
      · rfl
      · rw [(looks_iff fn).2 hl]; simp
    obtain ⟨text, k1, k2⟩ := decode_replaced p
    refine ⟨text, k2, ?_⟩
    unfold readPvl
    rw [(special_rest fn h1).2 h2]
    simp only [hk, trim_decoded (d := decode gb .utf8) (strict := false) (fun h => by cases h) hp k1]

/-- **C99 (limit).** For the special products, neither the size limit nor the strictness that were asked for make a difference. -/
theorem C99_special_labels_ignore_options (gb : Bool → Bytes → Option Str) (fn : Str) (stream : Bytes) (dedup : Bool) (m m' : Int) (s s' : Bool)
    (h : ChangE fn ∨ VexMag fn) : readPvl gb fn stream dedup m s = readPvl gb fn stream dedup m' s' := by
  have : ∃ q, specialEncoding fn = some q := by
    by_cases hc : ChangE fn
    · exact ⟨_, special_change fn hc⟩
    · exact ⟨_, (special_rest fn hc).1 (by rcases h with h | h; exact absurd h hc; exact h)⟩
  obtain ⟨q, hq⟩ := this
  unfold readPvl
  rw [hq]

end Verif.Label
