/-
C132, C133: XML packets in the metadata of desktop images.
-/
import Verif.Spec.DesktopXml
import Verif.Props.Xml

namespace Verif.DesktopXml
open Verif.Py Verif.Pvl Verif.DesktopXml.Spec

/-! ### names -/

theorem stripNsFuel_plain (s : Str) (h : '{' ∉ s) : ∀ n, stripNsFuel n s = s := by
  induction s with
  | nil => intro n; cases n <;> rfl
  | cons c s ih =>
    intro n
    cases n with
    | zero => rfl
    | succ n =>
      rw [stripNsFuel, if_neg (fun hc => h (by rw [hc]; exact List.mem_cons_self)), ih (fun hm => h (List.mem_cons_of_mem _ hm))]

theorem pastBrace_at (u name : Str) (h : '}' ∉ u ∧ '\n' ∉ u) : pastBrace (u ++ '}' :: name) = some name := by
  induction u with
  | nil => rfl
  | cons c u ih =>
    rw [List.cons_append, pastBrace, if_neg (fun hc => h.1 (by rw [hc]; exact List.mem_cons_self)), if_neg (fun hc => h.2 (by rw [hc]; exact List.mem_cons_self)),
      ih ⟨fun hm => h.1 (List.mem_cons_of_mem _ hm), fun hm => h.2 (List.mem_cons_of_mem _ hm)⟩]

theorem stripNs_etag {ns : Option Str} {name : Str} (h : ProperName ns name) : stripNs (etag ns name) = name := by
  cases ns with
  | none => exact stripNsFuel_plain _ h.1 _
  | some u =>
    have hp := pastBrace_at u name (h.2 u rfl)
    unfold stripNs etag
    simp only [List.cons_append, List.length_cons]
    rw [stripNsFuel, if_pos rfl, hp]
    exact stripNsFuel_plain _ h.1 _

theorem attributes_update {attrs : List (Option Str × Str × Str)} (h : ∀ a ∈ attrs, ProperName a.1 a.2.1) :
    attributes true (attrs.map (fun a => (etag a.1 a.2.1, a.2.2))) = Xml.update [] (plainAttributes attrs) := by
  unfold attributes Xml.update plainAttributes
  rw [List.foldl_map, List.foldl_map]
  refine List.foldl_ext _ _ _ (fun d a ha => ?_)
  rw [if_pos rfl, stripNs_etag (h a ha)]

theorem attributes_plain {attrs : List (Option Str × Str × Str)} (h : ∀ a ∈ attrs, ProperName a.1 a.2.1)
    (hn : (attrs.map (fun a => a.2.1)).Nodup) :
    attributes true (attrs.map (fun a => (etag a.1 a.2.1, a.2.2))) = plainAttributes attrs := by
  rw [attributes_update h, Xml.update_nodup, List.nil_append]
  simpa [plainAttributes, Function.comp_def] using hn

/-! ### texts -/

theorem hasText_iff (text : Option Str) : hasText text = true ↔ ¬ Blank text := by
  cases text with
  | none => simp [hasText, Blank]
  | some t =>
    rw [hasText, Bool.not_eq_true', ← Bool.not_eq_true, Xml.strip_isEmpty]
    simp [Blank, Xml.Spec.Blank]

theorem hasText_blank {text : Option Str} (h : Blank text) : hasText text = false := by
  rw [← Bool.not_eq_true, hasText_iff]
  exact fun hn => hn h

theorem trimmed_not_blank {t s : Str} (h : Trimmed t s) : ¬ Blank (some t) := by
  obtain ⟨a, b, rfl, _, _, h3, h4, _⟩ := h
  intro hb
  cases s with
  | nil => exact h3 rfl
  | cons c s =>
    have := hb _ rfl c (by simp)
    rw [h4 c rfl] at this
    cases this

theorem trimmed_unique {t s : Str} (h : Trimmed t s) : s = strip t := by
  obtain ⟨a, b, rfl, h1, h2, h3, h4, h5⟩ := h
  have hb : ∀ (l : Str) (u : Str), (∀ c ∈ l, isSpace c = true) → u ≠ [] → (∀ c, u.head? = some c → isSpace c = false) →
      (l ++ u).dropWhile isSpace = u := by
    intro l u hl hu hh
    rw [List.dropWhile_append, if_pos (by rw [List.isEmpty_iff, List.dropWhile_eq_nil_iff]; exact hl)]
    cases u with
    | nil => exact absurd rfl hu
    | cons c u => rw [List.dropWhile_cons, if_neg (by rw [hh c rfl]; decide)]
  unfold strip lstrip rstrip
  have hne : s ++ b ≠ [] := fun h => h3 (List.append_eq_nil_iff.mp h).1
  rw [List.append_assoc, hb a (s ++ b) h1 hne (by
    intro c hc
    rw [List.head?_append_of_ne_nil _ h3] at hc
    exact h4 c hc), List.reverse_append, hb b.reverse s.reverse (by simpa using h2) (by simpa using h3) (by
      intro c hc
      rw [List.head?_reverse] at hc
      exact h5 c hc), List.reverse_reverse]

theorem trimmed_strip {t : Str} (h : ¬ Blank (some t)) : Trimmed t (strip t) := by
  have hne : strip t ≠ [] := by
    intro he
    have := (hasText_iff (some t)).mpr h
    rw [hasText, he] at this
    cases this
  refine ⟨t.takeWhile isSpace, ((lstrip t).reverse.takeWhile isSpace).reverse, ?_, ?_, ?_, hne, ?_, ?_⟩
  · rw [List.append_assoc]
    unfold strip rstrip
    rw [← List.reverse_append, List.takeWhile_append_dropWhile, List.reverse_reverse]
    unfold lstrip
    rw [List.takeWhile_append_dropWhile]
  · intro c hc
    exact List.mem_takeWhile_imp hc
  · intro c hc
    rw [List.mem_reverse] at hc
    exact List.mem_takeWhile_imp hc
  · intro c hc
    have hpre : strip t <+: lstrip t := by
      have : (lstrip t).reverse.dropWhile isSpace <:+ (lstrip t).reverse := List.dropWhile_suffix _
      have := List.reverse_prefix.mpr this
      rwa [List.reverse_reverse] at this
    obtain ⟨r, hr⟩ := hpre
    have h1 : (lstrip t).head? = some c := by
      rw [← hr, List.head?_append_of_ne_nil _ hne, hc]
    exact Bool.eq_false_iff.mpr (by
      have := List.head?_dropWhile_not isSpace t
      unfold lstrip at h1
      rw [h1] at this
      simpa using this)
  · intro c hc
    unfold strip rstrip at hc
    rw [List.getLast?_reverse] at hc
    have := List.head?_dropWhile_not isSpace (lstrip t).reverse
    rw [hc] at this
    simpa using this

/-! ### elements -/

theorem etreeL_isEmpty (kids : List Doc) : (etreeL kids).isEmpty = kids.isEmpty := by
  cases kids <;> rfl

theorem attributes_isEmpty (r : Bool) (attrs : List (Option Str × Str × Str)) :
    (attrs.map (fun a => (etag a.1 a.2.1, a.2.2))).isEmpty = attrs.isEmpty := by
  cases attrs <;> rfl

/-- an element in the document -/
theorem self_mem (d : Doc) : d ∈ elements d := by
  cases d
  exact List.mem_cons_self

theorem kid_mem {d : Doc} {ds : List Doc} (h : d ∈ ds) : ∀ e ∈ elements d, e ∈ elementsL ds := by
  induction ds with
  | nil => cases h
  | cons x ds ih =>
    intro e he
    rcases List.mem_cons.mp h with rfl | h
    · exact List.mem_append_left _ he
    · exact List.mem_append_right _ (ih h e he)

theorem elementsL_kid {e : Doc} {ds : List Doc} (h : e ∈ elementsL ds) : ∃ d ∈ ds, e ∈ elements d := by
  induction ds with
  | nil => cases h
  | cons x ds ih =>
    rcases List.mem_append.mp h with h | h
    · exact ⟨x, List.mem_cons_self, h⟩
    · obtain ⟨d, hd, he⟩ := ih h
      exact ⟨d, List.mem_cons_of_mem _ hd, he⟩

/-- names as XML has them, and no text beside children -/
def Fine (d : Doc) : Prop := ∀ e ∈ elements d, ProperAt e ∧ ¬ Mixed e

theorem fine_kids {ns : Option Str} {name : Str} {attrs : List (Option Str × Str × Str)} {text : Option Str} {kids : List Doc}
    (h : Fine (.mk ns name attrs text kids)) : ∀ k ∈ kids, Fine k :=
  fun _ hk e he => h e (List.mem_cons_of_mem _ (kid_mem hk e he))

theorem silent_kids {ns : Option Str} {name : Str} {attrs : List (Option Str × Str × Str)} {text : Option Str} {kids : List Doc} :
    Silent (.mk ns name attrs text kids) ↔ (attrs = [] ∧ Blank text) ∧ ∀ k ∈ kids, Silent k := by
  constructor
  · intro h
    exact ⟨h _ List.mem_cons_self, fun k hk e he => h e (List.mem_cons_of_mem _ (kid_mem hk e he))⟩
  · intro h e he
    rcases List.mem_cons.mp he with rfl | he
    · exact h.1
    · obtain ⟨d, hd, he⟩ := elementsL_kid he
      exact h.2 d hd e he

/-- the entries of children that say nothing are left out -/
def entryOf (d : Doc) (u : Option Unpacked) : List (Str × Unpacked) :=
  match d with
  | .mk ns name _ _ _ => entry true (etag ns name) u

mutual
theorem unpack_silent : ∀ d : Doc, Silent d → unpack true (etree d) = .ok none ∨ unpack true (etree d) = .ok (some (.map []))
  | .mk ns name attrs text kids, h => by
    obtain ⟨⟨rfl, ht⟩, hk⟩ := silent_kids.mp h
    have hp : ∀ b, pick true ([] : List (Str × Str)) text b = .ok none := by
      intro b
      unfold pick
      rw [hasText_blank ht]
      rfl
    rw [etree, List.map_nil]
    unfold unpack
    rw [hp]
    simp only
    cases hkids : kids with
    | nil => left; rfl
    | cons k ks =>
      right
      rw [← hkids, if_neg (by rw [etreeL_isEmpty, hkids]; simp), unpackL_silent kids hk]
      rfl
theorem unpackL_silent : ∀ ds : List Doc, (∀ d ∈ ds, Silent d) → unpackL true (etreeL ds) = .ok []
  | [], _ => rfl
  | .mk ns name attrs text kids :: ds, h => by
    have h1 := unpack_silent (.mk ns name attrs text kids) (h _ List.mem_cons_self)
    have h2 := unpackL_silent ds (fun d hd => h d (List.mem_cons_of_mem _ hd))
    rw [etreeL, etree] at *
    unfold unpackL
    rcases h1 with h1 | h1 <;> rw [h1] <;> simp only <;> rw [h2] <;> rfl
end

theorem shows_not_empty {d : Doc} {u : Unpacked} (h : Shows d u) (hs : ¬ Silent d) : isEmpty u = false := by
  cases h with
  | text ns name t s ht =>
    obtain ⟨_, _, _, _, _, h3, _⟩ := ht
    cases s with
    | nil => exact absurd rfl h3
    | cons c s => rfl
  | attributes ns name attrs text ha ht =>
    cases attrs with
    | nil => exact absurd rfl ha
    | cons a attrs => rfl
  | both => rfl
  | kids ns name attrs text kids es hk ht hall =>
    cases attrs with
    | cons a attrs => rfl
    | nil =>
      cases es with
      | cons e es => rfl
      | nil =>
        refine absurd (silent_kids.mpr ⟨⟨rfl, ht⟩, ?_⟩) hs
        have : ∀ (ds : List Doc) (es : List (Str × Unpacked)), ShowsAll ds es → es = [] → ∀ k ∈ ds, Silent k := by
          intro ds es h
          induction ds generalizing es with
          | nil => intro _ k hk; cases hk
          | cons d ds ih =>
            intro he k hk
            subst he
            cases h with
            | skip _ _ _ h1 h2 =>
              rcases List.mem_cons.mp hk with rfl | hk
              · exact h1
              · exact ih _ h2 rfl k hk
        exact this kids [] hall rfl

mutual
theorem unpack_shows : ∀ d : Doc, Fine d → ¬ Silent d → ∃ u, unpack true (etree d) = .ok (some u) ∧ Shows d u
  | .mk ns name attrs text kids, h, hs => by
    obtain ⟨⟨hn, ha, hnd⟩, hm⟩ := h _ List.mem_cons_self
    have hattr := attributes_plain ha hnd
    have hemp := attributes_isEmpty true attrs
    rw [etree]
    unfold unpack
    by_cases hk : kids = []
    · subst hk
      by_cases ht : Blank text
      · have hne : attrs ≠ [] := fun he => hs (silent_kids.mpr ⟨⟨he, ht⟩, by simp⟩)
        refine ⟨.map (plainAttributes attrs), ?_, .attributes _ _ _ _ hne ht⟩
        unfold pick
        rw [hasText_blank ht, hemp, hattr]
        have : attrs.isEmpty = false := by simpa using hne
        rw [this]
        rfl
      · have ht' := (hasText_iff text).mpr ht
        cases text with
        | none => exact absurd (by intro t ht; cases ht) ht
        | some t =>
          by_cases hne : attrs = []
          · subst hne
            refine ⟨.text (strip t), ?_, .text _ _ _ _ (trimmed_strip ht)⟩
            unfold pick
            rw [ht']
            rfl
          · refine ⟨_, ?_, .both _ _ _ _ _ hne (trimmed_strip ht)⟩
            unfold pick
            rw [ht', hemp, hattr]
            have : attrs.isEmpty = false := by simpa using hne
            rw [this]
            rfl
    · have ht : Blank text := by
        by_contra hc
        exact hm ⟨hk, hc⟩
      have hkf : kids.isEmpty = false := by simpa using hk
      obtain ⟨es, h1, h2⟩ := unpackL_shows kids (fine_kids h)
      refine ⟨.map (plainAttributes attrs ++ es), ?_, .kids _ _ _ _ _ _ hk ht h2⟩
      unfold pick
      rw [hasText_blank ht, hemp, hattr, h1, etreeL_isEmpty, hkf]
      cases attrs with
      | nil => rfl
      | cons a attrs => rfl
theorem unpackL_shows : ∀ ds : List Doc, (∀ d ∈ ds, Fine d) → ∃ es, unpackL true (etreeL ds) = .ok es ∧ ShowsAll ds es
  | [], _ => ⟨[], rfl, .nil⟩
  | .mk ns name attrs text kids :: ds, h => by
    obtain ⟨es, h1, h2⟩ := unpackL_shows ds (fun d hd => h d (List.mem_cons_of_mem _ hd))
    have hf := h _ List.mem_cons_self
    by_cases hs : Silent (.mk ns name attrs text kids)
    · refine ⟨es, ?_, .skip _ _ _ hs h2⟩
      have h3 := unpack_silent _ hs
      rw [etreeL, etree] at *
      unfold unpackL
      rcases h3 with h3 | h3 <;> rw [h3] <;> simp only <;> rw [h1] <;> rfl
    · obtain ⟨u, h3, h4⟩ := unpack_shows _ hf hs
      refine ⟨(name, u) :: es, ?_, .cons _ _ _ _ _ _ _ _ hs h4 h2⟩
      have h5 := shows_not_empty h4 hs
      rw [etreeL, etree] at *
      unfold unpackL
      rw [h3]
      simp only
      rw [h1]
      have h6 := stripNs_etag (hf _ (self_mem _)).1.1
      unfold entry
      simp only
      rw [h5, if_neg (by decide), if_pos trivial, h6]
      rfl
end

/-! ### C132 -/

/-- **C132.** For every document with names as XML has them, without attributes that only differ in namespaces and without texts beside
children, that says something: the metadata show it as `Shows` says. -/
theorem C132_shown (d : Doc) (h : ∀ e ∈ elements d, ProperAt e ∧ ¬ Mixed e) (hs : ¬ Silent d) :
    ∃ u, unpack true (etree d) = .ok (some u) ∧ Shows d u :=
  unpack_shows d h hs

/-- **C132 (nothing to say).** A document without attributes and texts becomes nothing or an empty mapping. -/
theorem C132_silent (d : Doc) (hs : Silent d) : unpack true (etree d) = .ok none ∨ unpack true (etree d) = .ok (some (.map [])) :=
  unpack_silent d hs

theorem found_plain {attrs : List (Option Str × Str × Str)} {p : List Str} {v : Str} :
    Found (.map (plainAttributes attrs)) p v ↔ ∃ a ∈ attrs, p = [a.2.1] ∧ v = a.2.2 := by
  constructor
  · intro h
    cases h with
    | map es k u p v hm hf =>
      obtain ⟨a, ha, he⟩ := List.mem_map.mp hm
      cases he
      cases hf
      exact ⟨a, ha, rfl, rfl⟩
  · rintro ⟨a, ha, rfl, rfl⟩
    exact .map _ _ _ _ _ (List.mem_map.mpr ⟨a, ha, rfl⟩) (.text _)

theorem found_append {es fs : List (Str × Unpacked)} {p : List Str} {v : Str} :
    Found (.map (es ++ fs)) p v ↔ Found (.map es) p v ∨ Found (.map fs) p v := by
  constructor
  · intro h
    cases h with
    | map es k u p v hm hf =>
      rcases List.mem_append.mp hm with hm | hm
      · exact .inl (.map _ _ _ _ _ hm hf)
      · exact .inr (.map _ _ _ _ _ hm hf)
  · rintro (h | h) <;> cases h with
    | map es k u p v hm hf => exact .map _ _ _ _ _ (by simp [hm]) hf

theorem says_silent : ∀ (d : Doc) (p : List Str) (v : Str), Says d p v → ¬ Silent d := by
  intro d p v h
  refine Says.rec (motive_1 := fun d _ _ _ => ¬ Silent d) (motive_2 := fun ds _ _ _ => ∃ d ∈ ds, ¬ Silent d) ?_ ?_ ?_ ?_ ?_ ?_ ?_ h
  · intro ns name t s ht hs
    exact trimmed_not_blank ht (silent_kids.mp hs).1.2
  · intro ns name attrs t s ha ht hs
    exact trimmed_not_blank ht (silent_kids.mp hs).1.2
  · intro ns name attrs text kids a ha _ hs
    rw [(silent_kids.mp hs).1.1] at ha
    cases ha
  · intro ns name attrs t kids a ha _ hs
    rw [(silent_kids.mp hs).1.1] at ha
    cases ha
  · rintro ns name attrs text kids p v _ ⟨d, hd, hn⟩ hs
    exact hn ((silent_kids.mp hs).2 d hd)
  · intro ns name attrs text kids ds p v _ hn
    exact ⟨_, List.mem_cons_self, hn⟩
  · rintro d ds p v _ ⟨e, he, hn⟩
    exact ⟨e, List.mem_cons_of_mem _ he, hn⟩

theorem saysOne_silent {ds : List Doc} {p : List Str} {v : Str} (h : SaysOne ds p v) : ∃ d ∈ ds, ¬ Silent d := by
  induction ds with
  | nil => cases h
  | cons d ds ih =>
    cases h with
    | here ns name attrs text kids ds p v h => exact ⟨_, List.mem_cons_self, says_silent _ _ _ h⟩
    | there d ds p v h =>
      obtain ⟨e, he, hn⟩ := ih h
      exact ⟨e, List.mem_cons_of_mem _ he, hn⟩

mutual
theorem found_iff : ∀ (d : Doc) (u : Unpacked), Shows d u → ∀ p v, Found u p v ↔ Says d p v
  | .mk ns name attrs text kids, u, h, p, v => by
    cases h with
    | text ns name t s ht =>
      constructor
      · intro hf; cases hf; exact .text _ _ _ _ ht
      · intro hs
        cases hs with
        | text _ _ _ _ ht' => rw [trimmed_unique ht, trimmed_unique ht']; exact .text _
        | textBeside _ _ _ _ _ hne _ => exact absurd rfl hne
        | attr _ _ _ _ _ a ha _ => cases ha
        | attrBeside _ _ _ _ _ a ha _ => cases ha
        | child _ _ _ _ _ _ _ h => cases h
    | attributes ns name attrs text hne hb =>
      rw [found_plain]
      constructor
      · rintro ⟨a, ha, rfl, rfl⟩; exact .attr _ _ _ _ _ _ ha hb
      · intro hs
        cases hs with
        | text _ _ _ _ ht' => exact absurd rfl hne
        | textBeside _ _ _ _ _ _ ht => exact absurd hb (trimmed_not_blank ht)
        | attr _ _ _ _ _ a ha _ => exact ⟨a, ha, rfl, rfl⟩
        | attrBeside _ _ _ _ _ a ha h => exact absurd hb h
        | child _ _ _ _ _ _ _ h => cases h
    | both ns name attrs t s hne ht =>
      constructor
      · intro hf
        cases hf with
        | map es k u p v hm hf =>
          rcases List.mem_cons.mp hm with he | hm
          · cases he
            obtain ⟨a, ha, rfl, rfl⟩ := found_plain.mp hf
            exact .attrBeside _ _ _ _ _ _ ha (trimmed_not_blank ht)
          · rcases List.mem_cons.mp hm with he | hm
            · cases he
              cases hf
              exact .textBeside _ _ _ _ _ hne ht
            · cases hm
      · intro hs
        cases hs with
        | text _ _ _ _ ht' => exact absurd rfl hne
        | textBeside _ _ _ _ _ _ ht' =>
          rw [trimmed_unique ht, trimmed_unique ht']
          exact .map _ _ _ _ _ (List.mem_cons_of_mem _ List.mem_cons_self) (.text _)
        | attr _ _ _ _ _ a ha hb => exact absurd hb (trimmed_not_blank ht)
        | attrBeside _ _ _ _ _ a ha h =>
          exact .map _ _ _ _ _ List.mem_cons_self (found_plain.mpr ⟨a, ha, rfl, rfl⟩)
        | child _ _ _ _ _ _ _ h => cases h
    | kids ns name attrs text kids es hk hb hall =>
      rw [found_append, found_plain, foundL_iff kids es hall]
      constructor
      · rintro (⟨a, ha, rfl, rfl⟩ | h)
        · exact .attr _ _ _ _ _ _ ha hb
        · exact .child _ _ _ _ _ _ _ h
      · intro hs
        cases hs with
        | text _ _ _ _ ht' => exact absurd rfl hk
        | textBeside _ _ _ _ _ _ ht' => exact absurd rfl hk
        | attr _ _ _ _ _ a ha hb => exact .inl ⟨a, ha, rfl, rfl⟩
        | attrBeside _ _ _ _ _ a ha h => exact absurd hb h
        | child _ _ _ _ _ _ _ h => exact .inr h
theorem foundL_iff : ∀ (ds : List Doc) (es : List (Str × Unpacked)), ShowsAll ds es → ∀ p v, Found (.map es) p v ↔ SaysOne ds p v
  | [], es, h, p, v => by
    cases h
    constructor
    · intro hf
      cases hf with
      | map es k u p v hm hf => cases hm
    · intro hs; cases hs
  | .mk ns name attrs text kids :: ds, es, h, p, v => by
    cases h with
    | skip _ _ _ hs hall =>
      rw [foundL_iff ds es hall]
      constructor
      · exact .there _ _ _ _
      · intro ho
        cases ho with
        | here _ _ _ _ _ _ _ _ h => exact absurd hs (says_silent _ _ _ h)
        | there _ _ _ _ h => exact h
    | cons _ _ _ _ _ u _ es hs hsh hall =>
      have h1 := found_iff _ u hsh
      have h2 := foundL_iff ds es hall
      rw [show (name, u) :: es = [(name, u)] ++ es from rfl, found_append, h2]
      constructor
      · rintro (h | h)
        · cases h with
          | map es k u p v hm hf =>
            rcases List.mem_singleton.mp hm with he
            cases he
            exact .here _ _ _ _ _ _ _ _ ((h1 _ _).mp hf)
        · exact .there _ _ _ _ h
      · intro ho
        cases ho with
        | here _ _ _ _ _ _ _ _ h => exact .inl (.map _ _ _ _ _ List.mem_cons_self ((h1 _ _).mpr h))
        | there _ _ _ _ h => exact .inr h
end

/-- **C132 (all and only what the document says).** In the result stands, at the place that the names of the elements and attributes
give, every text and every attribute of the document, and no others. -/
theorem C132_complete (d : Doc) (h : ∀ e ∈ elements d, ProperAt e ∧ ¬ Mixed e) (hs : ¬ Silent d) :
    ∃ u, unpack true (etree d) = .ok (some u) ∧ ∀ p v, Found u p v ↔ Says d p v := by
  obtain ⟨u, h1, h2⟩ := unpack_shows d h hs
  exact ⟨u, h1, found_iff d u h2⟩

/-! ### C133 -/

mutual
theorem total (r : Bool) : ∀ x : Xml.Element, (∃ u, unpack r x = .ok u) ∨ unpack r x = .error .syntaxError
  | .mk tag attrs text kids => by
    have h := totalL r kids
    have hp : (∃ p, pick r attrs text (!kids.isEmpty) = .ok p) ∨ pick r attrs text (!kids.isEmpty) = .error .syntaxError := by
      unfold pick
      cases hasText text <;> cases kids.isEmpty <;> cases attrs.isEmpty <;> simp
    unfold unpack
    rcases hp with ⟨p, hp⟩ | hp <;> rw [hp] <;> simp only
    · cases kids.isEmpty with
      | true => exact .inl ⟨_, rfl⟩
      | false => rcases h with ⟨es, h⟩ | h <;> rw [h] <;> simp
    · exact .inr trivial
theorem totalL (r : Bool) : ∀ xs : List Xml.Element, (∃ es, unpackL r xs = .ok es) ∨ unpackL r xs = .error .syntaxError
  | [] => .inl ⟨[], rfl⟩
  | .mk tag attrs text kids :: xs => by
    have h1 := total r (.mk tag attrs text kids)
    have h2 := totalL r xs
    unfold unpackL
    rcases h1 with ⟨u, h1⟩ | h1 <;> rw [h1] <;> simp only
    · rcases h2 with ⟨es, h2⟩ | h2 <;> rw [h2] <;> simp
    · exact .inr trivial
end

theorem unpack_total (d : Doc) : (∃ u, unpack true (etree d) = .ok u) ∨ unpack true (etree d) = .error .syntaxError := total true _

mutual
theorem unpack_mixed : ∀ d : Doc, (∃ e ∈ elements d, Mixed e) → unpack true (etree d) = .error .syntaxError
  | .mk ns name attrs text kids, h => by
    rw [etree]
    unfold unpack
    by_cases hm : Mixed (.mk ns name attrs text kids)
    · unfold pick
      have hk : kids.isEmpty = false := by simpa using hm.1
      rw [(hasText_iff text).mpr hm.2, etreeL_isEmpty, hk]
      rfl
    · obtain ⟨e, he, hme⟩ := h
      rcases List.mem_cons.mp he with rfl | he
      · exact absurd hme hm
      · have hk : kids ≠ [] := by rintro rfl; cases he
        have hkf : kids.isEmpty = false := by simpa using hk
        have ht : Blank text := by
          by_contra hc
          exact hm ⟨hk, hc⟩
        have hp : ∀ a : List (Str × Str), ∃ p, pick true a text true = .ok p := by
          intro a
          unfold pick
          rw [hasText_blank ht]
          cases a with
          | nil => exact ⟨_, rfl⟩
          | cons b a => exact ⟨_, rfl⟩
        rw [etreeL_isEmpty, hkf]
        obtain ⟨p, hp⟩ := hp (attrs.map (fun a => (etag a.1 a.2.1, a.2.2)))
        rw [show (!false) = true from rfl, hp, unpackL_mixed kids ⟨e, he, hme⟩]
        rfl
theorem unpackL_mixed : ∀ ds : List Doc, (∃ e ∈ elementsL ds, Mixed e) → unpackL true (etreeL ds) = .error .syntaxError
  | [], h => by
    obtain ⟨e, he, _⟩ := h
    cases he
  | .mk ns name attrs text kids :: ds, h => by
    obtain ⟨e, he, hm⟩ := h
    have h1 := fun hx => unpack_mixed (.mk ns name attrs text kids) hx
    have h2 := fun hx => unpackL_mixed ds hx
    have h3 := unpack_total (.mk ns name attrs text kids)
    rw [etreeL, etree] at *
    unfold unpackL
    by_cases hd : ∃ e ∈ elements (.mk ns name attrs text kids), Mixed e
    · rw [h1 hd]
    · rcases List.mem_append.mp he with he | he
      · exact absurd ⟨e, he, hm⟩ hd
      · rcases h3 with ⟨u, h3⟩ | h3 <;> rw [h3]
        simp only
        rw [h2 ⟨e, he, hm⟩]
end

/-- **C133 (texts beside children).** If any element has a text beside children, the packet cannot be read, whatever else is in it. -/
theorem C133_mixed (d : Doc) (h : ∃ e ∈ elements d, Mixed e) : unpack true (etree d) = .error .syntaxError :=
  unpack_mixed d h

theorem mem_setKey_other {k k' : Str} {v w : Unpacked} (h : k ≠ k') (d : List (Str × Unpacked)) :
    (k, w) ∈ Xml.setKey k' v d ↔ (k, w) ∈ d := by
  induction d with
  | nil => simp [Xml.setKey, h]
  | cons e d ih =>
    unfold Xml.setKey
    split
    · rename_i he
      rw [List.mem_cons, List.mem_cons]
      constructor
      · rintro (hc | hc)
        · cases hc; exact absurd he h
        · exact .inr hc
      · rintro (hc | hc)
        · subst hc; exact absurd he h
        · exact .inr hc
    · rw [List.mem_cons, List.mem_cons, ih]

theorem keys_setKey {k : Str} {v : Unpacked} (d : List (Str × Unpacked)) :
    (Xml.setKey k v d).map Prod.fst = d.map Prod.fst ∨ (Xml.setKey k v d).map Prod.fst = d.map Prod.fst ++ [k] := by
  induction d with
  | nil => exact .inr rfl
  | cons e d ih =>
    unfold Xml.setKey
    split
    · rename_i he
      left
      simp [he]
    · rcases ih with ih | ih
      · left; simp [ih]
      · right; simp [ih]

theorem mem_setKey_same {k : Str} {v w : Unpacked} (d : List (Str × Unpacked)) (hn : (d.map Prod.fst).Nodup) :
    (k, w) ∈ Xml.setKey k v d ↔ w = v := by
  induction d with
  | nil => simp [Xml.setKey]
  | cons e d ih =>
    rw [List.map_cons, List.nodup_cons] at hn
    unfold Xml.setKey
    split
    · rename_i he
      rw [List.mem_cons]
      constructor
      · rintro (hc | hc)
        · cases hc; rfl
        · exact absurd (List.mem_map.mpr ⟨_, hc, he.symm⟩) hn.1
      · rintro rfl; exact .inl (Prod.ext he.symm rfl)
    · rename_i he
      rw [List.mem_cons, ih hn.2]
      constructor
      · rintro (hc | hc)
        · subst hc; exact absurd rfl he
        · exact hc
      · exact .inr

theorem setKey_nodup {k : Str} {v : Unpacked} {d : List (Str × Unpacked)} (hn : (d.map Prod.fst).Nodup) :
    ((Xml.setKey k v d).map Prod.fst).Nodup := by
  by_cases hk : k ∈ d.map Prod.fst
  · rcases keys_setKey (k := k) (v := v) d with h | h
    · rw [h]; exact hn
    · exfalso
      have : ∀ d : List (Str × Unpacked), k ∈ d.map Prod.fst → (Xml.setKey k v d).length = d.length := by
        intro d
        induction d with
        | nil => intro h; cases h
        | cons e d ih =>
          intro h
          unfold Xml.setKey
          split
          · rfl
          · rename_i he
            rw [List.map_cons, List.mem_cons] at h
            rw [List.length_cons, List.length_cons, ih (h.resolve_left (fun hc => he hc.symm))]
      have h1 := congrArg List.length h
      rw [List.length_map, List.length_append, List.length_map, this d hk] at h1
      simp at h1
  · rw [Xml.setKey_new k v d hk, List.map_append]
    exact List.nodup_append.mpr ⟨hn, List.nodup_singleton _, fun a ha b hb => by
      rw [List.map_cons, List.map_nil, List.mem_singleton] at hb
      intro heq
      have hak : a = k := heq.trans hb
      exact hk (hak ▸ ha)⟩

theorem update_last (k : Str) (v w : Unpacked) (after : List (Str × Unpacked)) (hk : k ∉ after.map Prod.fst) :
    ∀ (before d : List (Str × Unpacked)), (d.map Prod.fst).Nodup → ((k, w) ∈ Xml.update d (before ++ (k, v) :: after) ↔ w = v) := by
  have hafter : ∀ (after d : List (Str × Unpacked)), k ∉ after.map Prod.fst → ((k, w) ∈ Xml.update d after ↔ (k, w) ∈ d) := by
    intro after
    unfold Xml.update
    induction after with
    | nil => intro d _; rfl
    | cons e es ih =>
      intro d hk
      rw [List.map_cons, List.mem_cons, not_or] at hk
      rw [List.foldl_cons, ih _ hk.2, mem_setKey_other hk.1]
  intro before
  induction before with
  | nil =>
    intro d hd
    have := hafter after (Xml.setKey k v d) hk
    rw [mem_setKey_same d hd] at this
    exact this
  | cons e es ih =>
    intro d hd
    exact ih (Xml.setKey e.1 e.2 d) (setKey_nodup hd)

/-- **C133 (attributes in two namespaces).** Of the attributes of an element that only differ in their namespaces the last remains, and
nothing of those before it. -/
theorem C133_namespaces (ns : Option Str) (name : Str) (before after : List (Option Str × Str × Str)) (b : Option Str × Str × Str)
    (text : Option Str) (ht : Blank text) (hp : ∀ a ∈ before ++ b :: after, ProperName a.1 a.2.1) (hlast : ∀ a ∈ after, a.2.1 ≠ b.2.1) :
    ∃ u, unpack true (etree (.mk ns name (before ++ b :: after) text [])) = .ok (some u) ∧ ∀ v, Found u [b.2.1] v ↔ v = b.2.2 := by
  refine ⟨.map (Xml.update [] (plainAttributes (before ++ b :: after))), ?_, ?_⟩
  · rw [etree]
    unfold unpack pick
    rw [hasText_blank ht, attributes_isEmpty true, attributes_update hp]
    have : (before ++ b :: after).isEmpty = false := by cases before <;> rfl
    rw [this]
    rfl
  · intro v
    have hu := fun w => update_last b.2.1 (.text b.2.2) w (plainAttributes after) (by
      intro hm
      simp only [plainAttributes, List.map_map, List.mem_map, Function.comp_apply] at hm
      obtain ⟨a, ha, he⟩ := hm
      exact hlast a ha he) (plainAttributes before) [] List.nodup_nil
    have hs : plainAttributes (before ++ b :: after) = plainAttributes before ++ (b.2.1, .text b.2.2) :: plainAttributes after := by
      simp [plainAttributes]
    rw [hs]
    constructor
    · intro hf
      cases hf with
      | map es k u p v hm hf =>
        have := (hu u).mp hm
        subst this
        cases hf
        rfl
    · rintro rfl
      exact .map _ _ _ _ _ ((hu _).mpr rfl) (.text _)

/-! ### examples -/

/-- an XMP packet: `<x:xmpmeta xmlns:x="adobe:ns:meta/"><r:Description r:about="me"> <d:format> image/tiff </d:format><d:none/>
<d:title lang="en">Io</d:title></r:Description></x:xmpmeta>` -/
def demoPacket : Doc :=
  .mk (some c!"adobe:ns:meta/") c!"xmpmeta" [] none [
    .mk (some c!"rdf") c!"Description" [(some c!"rdf", c!"about", c!"me")] (some c!" ") [
      .mk (some c!"dc") c!"format" [] (some c!" image/tiff ") [],
      .mk (some c!"dc") c!"none" [] none [],
      .mk (some c!"dc") c!"title" [(none, c!"lang", c!"en")] (some c!"Io") []]]

theorem demo_fine : ∀ e ∈ elements demoPacket, ProperAt e ∧ ¬ Mixed e := by
  have hb : Blank (some c!" ") := by
    intro t ht
    cases ht
    decide
  have hn : Blank none := fun t ht => by cases ht
  intro e he
  simp only [demoPacket, elements, elementsL, List.append_nil, List.cons_append, List.nil_append, List.mem_cons, List.not_mem_nil, or_false] at he
  rcases he with rfl | rfl | rfl | rfl | rfl
  · refine ⟨⟨⟨by decide, by decide⟩, by simp, by decide⟩, fun h => h.2 hn⟩
  · refine ⟨⟨⟨by decide, by decide⟩, ?_, by decide⟩, fun h => h.2 hb⟩
    intro a ha
    rw [List.mem_singleton] at ha
    subst ha
    exact ⟨by decide, by decide⟩
  · refine ⟨⟨⟨by decide, by decide⟩, by simp, by decide⟩, fun h => h.1 rfl⟩
  · refine ⟨⟨⟨by decide, by decide⟩, by simp, by decide⟩, fun h => h.1 rfl⟩
  · refine ⟨⟨⟨by decide, by decide⟩, ?_, by decide⟩, fun h => h.1 rfl⟩
    intro a ha
    rw [List.mem_singleton] at ha
    subst ha
    exact ⟨by decide, by decide⟩

/-- the hypotheses of `C132_complete` are met, and what it finds in this packet -/
example : ∃ u, unpack true (etree demoPacket) = .ok (some u) ∧
    Found u [c!"Description", c!"about"] c!"me" ∧ Found u [c!"Description", c!"format"] c!"image/tiff" ∧
    Found u [c!"Description", c!"title", c!"text"] c!"Io" := by
  have hs : ¬ Silent demoPacket := by
    intro h
    have := (h (.mk (some c!"dc") c!"title" [(none, c!"lang", c!"en")] (some c!"Io") []) (by
      simp [demoPacket, elements, elementsL])).1
    cases this
  obtain ⟨u, h1, h2⟩ := C132_complete demoPacket demo_fine hs
  have ht : Trimmed c!"Io" c!"Io" := ⟨[], [], rfl, by simp, by simp, by decide, by decide, by decide⟩
  refine ⟨u, h1, (h2 _ _).mpr ?_, (h2 _ _).mpr ?_, (h2 _ _).mpr ?_⟩
  · exact .child _ _ _ _ _ _ _ (.here _ _ _ _ _ _ _ _ (.attr _ _ _ _ _ (some c!"rdf", c!"about", c!"me") List.mem_cons_self
      (by intro t ht; cases ht; decide)))
  · exact .child _ _ _ _ _ _ _ (.here _ _ _ _ _ _ _ _ (.child _ _ _ _ _ _ _ (.here _ _ _ _ _ _ _ _ (.text _ _ _ _
      ⟨c!" ", c!" ", rfl, by decide, by decide, by decide, by decide, by decide⟩))))
  · exact .child _ _ _ _ _ _ _ (.here _ _ _ _ _ _ _ _ (.child _ _ _ _ _ _ _ (.there _ _ _ _ (.there _ _ _ _ (.here _ _ _ _ _ _ _ _
      (.textBeside _ _ _ _ _ (by simp) ht))))))

/-- a text beside children: `<p>see <b>this</b></p>` within another element -/
example : unpack true (etree (.mk none c!"a" [] none [.mk none c!"p" [] (some c!"see ") [.mk none c!"b" [] (some c!"this") []]])) =
    .error .syntaxError := by
  refine C133_mixed _ ⟨.mk none c!"p" [] (some c!"see ") [.mk none c!"b" [] (some c!"this") []], ?_, by simp, ?_⟩
  · simp [elements, elementsL]
  · intro h
    have := h c!"see " rfl 's' (by decide)
    revert this
    decide

/-- `<a x:id="1" y:id="2"/>`: only the second `id` remains -/
example : ∃ u, unpack true (etree (.mk none c!"a" [(some c!"x", c!"id", c!"1"), (some c!"y", c!"id", c!"2")] none [])) = .ok (some u) ∧
    ∀ v, Found u [c!"id"] v ↔ v = c!"2" :=
  C133_namespaces none c!"a" [(some c!"x", c!"id", c!"1")] [] (some c!"y", c!"id", c!"2") none (fun t ht => by cases ht)
    (by
      intro a ha
      simp only [List.cons_append, List.nil_append, List.mem_cons, List.not_mem_nil, or_false] at ha
      rcases ha with rfl | rfl <;> exact ⟨by decide, by decide⟩)
    (by simp)

/-- a document that says nothing -/
example : Silent (.mk none c!"a" [] none [.mk none c!"b" [] (some c!" ") []]) := by
  rw [silent_kids]
  refine ⟨⟨rfl, fun t ht => by cases ht⟩, ?_⟩
  intro k hk
  rw [List.mem_singleton] at hk
  subst hk
  exact silent_kids.mpr ⟨⟨rfl, fun t ht => by cases ht; decide⟩, by simp⟩

end Verif.DesktopXml
