/-
C136, C137: printing metadata.
-/
import Verif.Spec.Prettify

namespace Verif.Prettify
open Verif.Py Verif.Pvl Spec

variable {α : Type} (face : α → Face) (wrap : Str → Nat → List Str)

theorem ink_append (a b : Str) : ink (a ++ b) = ink a ++ ink b := List.filter_append ..

theorem ink_spaces (n : Nat) : ink (spaces n) = [] := by
  unfold ink spaces
  rw [List.filter_eq_nil_iff]
  intro c hc
  rw [List.eq_of_mem_replicate hc]
  decide

theorem ink_newline : ink c!"\n" = [] := by decide
theorem ink_comma : ink c!",\n" = ink c!", " := by decide
theorem ink_nil : ink [] = [] := rfl

theorem ink_braces (x : Str) : ink (c!"{" ++ x ++ c!"}") = ink c!"{" ++ ink x ++ c!"}" := by
  rw [ink_append, ink_append]; rfl

theorem ink_length (s : Str) : (ink s).length ≤ s.length := List.length_filter_le ..

theorem ink_join (n : Nat) : ∀ ls : List Str, ink (join c!"\n" (ls.map (fun l => spaces n ++ l))) = ink ls.flatten
  | [] => rfl
  | [l] => by simp [join, ink_append, ink_spaces]
  | l :: m :: ls => by
    have := ink_join n (m :: ls)
    simp only [List.map_cons] at this
    simp only [List.map_cons, join, List.flatten_cons, ink_append, ink_spaces, ink_newline] at *
    rw [this]
    simp

theorem ink_blank {s : Str} : Blank s ↔ ink s = [] := by
  unfold Blank ink
  rw [List.filter_eq_nil_iff]
  exact ⟨fun h c hc => by simp [h c hc], fun h c hc => by simpa using h c hc⟩

theorem leaf_content (hw : Wraps wrap) (ind i : Nat) (a : α) (out : Str)
    (h : leafText face wrap ind i a = .ok out) : ink out = ink (face a).text := by
  unfold leafText at h
  split at h
  · rename_i s hs
    cases h
    rw [hs]; rfl
  · rename_i s hs
    split at h
    · cases h; rw [hs]; rfl
    · split at h
      · cases h
      · rename_i hl hi
        have := (hw s (70 - ind) (by omega)).1
        split at h
        · cases h
        · rename_i l ls hls
          rw [hls] at this
          cases h
          rw [hs, ink_append, ink_append, ink_newline, ink_join]
          show _ = ink s
          rw [← this, List.flatten_cons, ink_append, List.append_nil]

/-- short entries are shown as they are -/
def Shown (face : α → Face) (m : MDict α) (out : Str) : Prop :=
  ∀ d k a, Entry d k (.leaf a) m → (∀ s, ¬Long face a s) → k ++ c!": " ++ (face a).text ++ c!"," <:+: out

theorem leaf_verbatim (ind i : Nat) (a : α) (out : Str) (h : leafText face wrap ind i a = .ok out)
    (hs : ∀ s, ¬Long face a s) : out = (face a).text := by
  unfold leafText at h
  split at h
  · rename_i s he; cases h; rw [he]; rfl
  · rename_i s he
    split at h
    · cases h; rw [he]; rfl
    · rename_i hl
      exact absurd ⟨he, by omega⟩ (hs s)

theorem attempt_ok {f : Except PyErr (Option Str)} {g : Except PyErr Str} {out : Str} (h : attempt f g = .ok out) :
    f = .ok (some out) ∨ (f = .ok none ∧ g = .ok out) := by
  unfold attempt at h
  split at h
  · cases h
  · cases h; exact .inl rfl
  · exact .inr ⟨rfl, h⟩

theorem entry_cons {d : Nat} {k k' : Str} {a : α} {v : Tree α} {rest : MDict α}
    (h : Entry d k (.leaf a) ((k', v) :: rest)) :
    (k = k' ∧ v = .leaf a) ∨ (∃ d' kids, v = .node kids ∧ Entry d' k (.leaf a) kids) ∨ Entry d k (.leaf a) rest := by
  cases h with
  | here hm =>
    rcases List.mem_cons.1 hm with e | e
    · cases e; exact .inl ⟨rfl, rfl⟩
    · exact .inr (.inr (.here e))
  | inside hm hi =>
    rcases List.mem_cons.1 hm with e | e
    · cases e; exact .inr (.inl ⟨_, _, rfl, hi⟩)
    · exact .inr (.inr (.inside e hi))

/-- what a piece of text shows of a value -/
def ShownV (face : α → Face) (v : Tree α) (s : Str) : Prop :=
  (∀ a, v = .leaf a → (∀ t, ¬Long face a t) → s = (face a).text) ∧
  (∀ kids, v = .node kids → Shown face kids s)

theorem shown_cons {k : Str} {v : Tree α} {rest : MDict α} {pre s post : Str}
    (hv : ShownV face v s) (hr : Shown face rest (pre ++ (k ++ c!": " ++ s ++ c!",") ++ post)) :
    Shown face ((k, v) :: rest) (pre ++ (k ++ c!": " ++ s ++ c!",") ++ post) := by
  intro d k' a he hs
  rcases entry_cons he with ⟨hk, hl⟩ | ⟨d', kids, hn, hi⟩ | hr'
  · rw [hk, ← hv.1 a hl hs]
    exact ⟨pre, post, rfl⟩
  · obtain ⟨x, y, hxy⟩ := hv.2 kids hn d' k' a hi hs
    refine ⟨pre ++ k ++ c!": " ++ x, y ++ c!"," ++ post, ?_⟩
    rw [← hxy]
    simp only [List.append_assoc]
  · exact hr d k' a hr' hs

mutual
theorem value_content (hw : Wraps wrap) : ∀ (v : Tree α) (ind i : Nat) (s : Str),
    valueText face wrap ind i v = .ok s → ink s = ink (lineT face v) ∧ ShownV face v s
  | .leaf a, ind, i, s, h => by
    rw [valueText] at h
    refine ⟨?_, ?_, ?_⟩
    · rw [lineT]; exact leaf_content face wrap hw _ _ _ _ h
    · intro b hb hl; cases hb; exact leaf_verbatim face wrap _ _ _ _ h hl
    · intro kids hk; cases hk
  | .node kids, ind, i, s, h => by
    rw [valueText] at h
    have : ink s = ink (c!"{" ++ line face kids ++ c!"}") ∧ Shown face kids s := by
      rcases attempt_ok h with h | ⟨_, h⟩
      · have := flat_content hw kids _ _ _ h
        exact ⟨by rw [this.1, ink_braces], this.2.1⟩
      · have := many_content hw kids _ _ _ _ h
        exact ⟨by rw [this.1, ink_braces], this.2.1⟩
    refine ⟨by rw [lineT]; exact this.1, ?_, ?_⟩
    · intro b hb; cases hb
    · intro kids' hk; cases hk; exact this.2

theorem flat_content (hw : Wraps wrap) : ∀ (m : MDict α) (i : Nat) (out s : Str),
    flat face wrap i m out = .ok (some s) →
      ink s = ink out ++ ink (line face m) ++ c!"}" ∧ Shown face m s ∧ out <+: s
  | [], i, out, s, h => by
    rw [flat] at h
    cases h
    refine ⟨by simp [ink_append, line, ink_nil]; decide, ?_, ⟨_, rfl⟩⟩
    intro d k a he; cases he with
    | here hm => cases hm
    | inside hm => cases hm
  | (k, v) :: rest, i, out, s, h => by
    rw [flat] at h
    split at h
    · cases h
    · rename_i t ht
      split at h
      · cases h
      · have hv := value_content hw v _ _ _ ht
        have hr := flat_content hw rest _ _ _ h
        obtain ⟨post, hp⟩ := hr.2.2
        have hs : s = out ++ (k ++ c!": " ++ t ++ c!",") ++ (c!" " ++ post) := by
          rw [← hp]; simp [List.append_assoc]
        refine ⟨?_, ?_, ?_⟩
        · rw [hr.1, line]
          simp only [ink_append, hv.1, List.append_assoc]
        · rw [hs]
          exact shown_cons face hv.2 (by rw [← hs]; exact hr.2.1)
        · exact ⟨_, by rw [hs, List.append_assoc]⟩

theorem many_content (hw : Wraps wrap) : ∀ (m : MDict α) (i : Nat) (first : Bool) (out s : Str),
    many face wrap i first m out = .ok s →
      ink s = ink out ++ ink (line face m) ++ c!"}" ∧ Shown face m s ∧ out <+: s
  | [], i, first, out, s, h => by
    rw [many] at h
    cases h
    refine ⟨?_, ?_, ⟨_, (List.append_assoc ..).symm⟩⟩
    · have : ink (if first = true then [] else spaces (i - 1)) = [] := by
        cases first
        · exact ink_spaces _
        · rfl
      simp [ink_append, line, ink_nil, this]; decide
    · intro d k a he; cases he with
      | here hm => cases hm
      | inside hm => cases hm
  | (k, v) :: rest, i, first, out, s, h => by
    rw [many] at h
    split at h
    · cases h
    · rename_i t ht
      have hv := value_content hw v _ _ _ ht
      have hr := many_content hw rest _ _ _ _ h
      obtain ⟨post, hp⟩ := hr.2.2
      have ho : ∃ x, (if first = true then out ++ c!"\n" else out) = out ++ x ∧ ink x = [] := by
        cases first
        · exact ⟨[], by simp, rfl⟩
        · exact ⟨c!"\n", rfl, ink_newline⟩
      obtain ⟨x, hx, hix⟩ := ho
      rw [hx] at hr hp
      have hs : s = (out ++ x ++ spaces i) ++ (k ++ c!": " ++ t ++ c!",") ++ (c!"\n" ++ post) := by
        rw [← hp]; simp [List.append_assoc]
      refine ⟨?_, ?_, ?_⟩
      · rw [hr.1, line]
        have hc : ink [',', '\n'] = ink [',', ' '] := by decide
        simp only [ink_append, hv.1, hix, ink_spaces, hc, List.append_assoc, List.nil_append]
      · rw [hs]
        exact shown_cons face hv.2 (by rw [← hs]; exact hr.2.1)
      · exact ⟨x ++ spaces i ++ (k ++ c!": " ++ t ++ c!",") ++ (c!"\n" ++ post), by
          rw [hs]; simp only [List.append_assoc]⟩
end

theorem prettify_content (hw : Wraps wrap) (i : Nat) (m : MDict α) (s : Str) (h : prettify face wrap i m = .ok s) :
    ink s = ink (c!"{" ++ line face m ++ c!"}") ∧ Shown face m s := by
  rcases attempt_ok h with h | ⟨_, h⟩
  · have := flat_content face wrap hw m _ _ _ h
    exact ⟨by rw [this.1, ink_braces], this.2.1⟩
  · have := many_content face wrap hw m _ _ _ _ h
    exact ⟨by rw [this.1, ink_braces], this.2.1⟩

/-! ### when there is a text -/

/-- the long strings can be wrapped, if the entries of the label are indented by `i` -/
def Good (face : α → Face) (i : Nat) (m : MDict α) : Prop :=
  ∀ d k a s, Entry d k (.leaf a) m → Long face a s → i + 3 * d < 70 ∧ ¬Blank s

theorem leaf_some (hw : Wraps wrap) (ind i : Nat) (a : α) (h : ∀ s, Long face a s → ind < 70 ∧ ¬Blank s) :
    ∃ t, leafText face wrap ind i a = .ok t := by
  unfold leafText
  split
  · exact ⟨_, rfl⟩
  · rename_i s hs
    split
    · exact ⟨_, rfl⟩
    · obtain ⟨h1, h2⟩ := h s ⟨hs, by omega⟩
      rw [if_neg (by omega)]
      split
      · rename_i he
        have := (hw s (70 - ind) (by omega)).1
        rw [he] at this
        exact absurd (ink_blank.2 this.symm) h2
      · exact ⟨_, rfl⟩

theorem attempt_some {f : Except PyErr (Option Str)} {g : Except PyErr Str} (hf : ∃ o, f = .ok o)
    (hg : ∃ s, g = .ok s) : ∃ s, attempt f g = .ok s := by
  obtain ⟨o, rfl⟩ := hf
  obtain ⟨s, rfl⟩ := hg
  cases o
  · exact ⟨s, rfl⟩
  · exact ⟨_, rfl⟩

theorem good_tail {i : Nat} {e : Str × Tree α} {m : MDict α} (h : Good face i (e :: m)) : Good face i m := by
  intro d k a s he hl
  refine h d k a s ?_ hl
  cases he with
  | here hm => exact .here (List.mem_cons_of_mem _ hm)
  | inside hm hi => exact .inside (List.mem_cons_of_mem _ hm) hi

theorem good_kids {i : Nat} {k : Str} {kids m : MDict α} (h : Good face i ((k, .node kids) :: m)) :
    Good face (i + 3) kids := by
  intro d k' a s he hl
  have := h (d + 1) k' a s (.inside (List.mem_cons_self ..) he) hl
  exact ⟨by omega, this.2⟩

theorem good_weaken {i j : Nat} {m : MDict α} (hij : i ≤ j) (h : Good face j m) : Good face i m := by
  intro d k a s he hl
  have := h d k a s he hl
  exact ⟨by omega, this.2⟩

mutual
theorem value_some (hw : Wraps wrap) : ∀ (v : Tree α) (ind i : Nat),
    (∀ a s, v = .leaf a → Long face a s → ind < 70 ∧ ¬Blank s) → (∀ kids, v = .node kids → Good face (i + 3) kids) →
      ∃ t, valueText face wrap ind i v = .ok t
  | .leaf a, ind, i, h, _ => by
    rw [valueText]
    exact leaf_some face wrap hw ind i a (fun s hl => h a s rfl hl)
  | .node kids, ind, i, _, h => by
    rw [valueText]
    have hg := h kids rfl
    exact attempt_some (flat_some hw kids _ _ (good_weaken face (by omega) hg)) (many_some hw kids _ _ _ hg)

theorem flat_some (hw : Wraps wrap) : ∀ (m : MDict α) (i : Nat) (out : Str), Good face i m →
    ∃ o, flat face wrap i m out = .ok o
  | [], i, out, _ => ⟨_, by rw [flat]⟩
  | (k, v) :: rest, i, out, h => by
    obtain ⟨t, ht⟩ := value_some hw v 0 i
      (fun a s hv hl => ⟨by omega, (h 0 k a s (.here (by rw [hv]; exact List.mem_cons_self ..)) hl).2⟩)
      (fun kids hv => good_kids face (by rw [hv] at h; exact h))
    rw [flat, ht]
    dsimp only
    split
    · exact ⟨_, rfl⟩
    · exact flat_some hw rest _ _ (good_tail face h)

theorem many_some (hw : Wraps wrap) : ∀ (m : MDict α) (i : Nat) (first : Bool) (out : Str), Good face i m →
    ∃ s, many face wrap i first m out = .ok s
  | [], i, first, out, _ => ⟨_, by rw [many]⟩
  | (k, v) :: rest, i, first, out, h => by
    obtain ⟨t, ht⟩ := value_some hw v i i
      (fun a s hv hl => by simpa using h 0 k a s (.here (by rw [hv]; exact List.mem_cons_self ..)) hl)
      (fun kids hv => good_kids face (by rw [hv] at h; exact h))
    rw [many, ht]
    exact many_some hw rest _ _ _ (good_tail face h)
end

theorem prettify_some (hw : Wraps wrap) (i : Nat) (m : MDict α) (h : Good face (i + 1) m) :
    ∃ s, prettify face wrap i m = .ok s :=
  attempt_some (flat_some face wrap hw m i _ (good_weaken face (by omega) h)) (many_some face wrap hw m _ _ _ h)

/-! ### on one line -/

mutual
theorem value_line : ∀ (v : Tree α) (ind i : Nat), (lineT face v).length ≤ 70 →
    valueText face wrap ind i v = .ok (lineT face v)
  | .leaf a, ind, i, h => by
    rw [lineT] at h
    rw [valueText, lineT]
    unfold leafText
    split
    · rename_i s hs; rw [hs]; rfl
    · rename_i s hs
      rw [hs] at h
      rw [hs]
      exact if_pos h
  | .node kids, ind, i, h => by
    rw [lineT] at h
    simp only [List.length_append, List.length_cons, List.length_nil] at h
    rw [valueText, flat_line kids _ _ (by simp; omega), lineT]
    rfl

theorem flat_line : ∀ (m : MDict α) (i : Nat) (out : Str), (out ++ line face m).length ≤ 70 →
    flat face wrap i m out = .ok (some (out ++ line face m ++ c!"}"))
  | [], i, out, _ => by rw [flat, line, List.append_nil]
  | (k, v) :: rest, i, out, h => by
    rw [line] at h
    have hl : (out ++ k ++ c!": " ++ lineT face v ++ c!", " ++ line face rest).length ≤ 70 := by
      simpa [List.append_assoc] using h
    have hl' := hl
    simp only [List.length_append] at hl
    rw [flat, value_line v 0 i (by omega)]
    dsimp only
    rw [if_neg (by simp only [List.length_append]; omega), flat_line rest i _ hl', line]
    simp only [List.append_assoc]
end

/-! ### when there is no text -/

theorem flat_each : ∀ (m : MDict α) (i : Nat) (out s : Str), flat face wrap i m out = .ok (some s) →
    ∀ e ∈ m, ∃ t, valueText face wrap 0 i e.2 = .ok t ∧ t.length ≤ 70
  | [], _, _, _, _ => fun e he => by cases he
  | (k, v) :: rest, i, out, s, h => by
    rw [flat] at h
    split at h
    · cases h
    · rename_i t ht
      split at h
      · cases h
      · rename_i hl
        intro e he
        rcases List.mem_cons.1 he with rfl | he
        · exact ⟨t, ht, by simp only [List.length_append] at hl; omega⟩
        · exact flat_each rest _ _ _ h e he

theorem many_each : ∀ (m : MDict α) (i : Nat) (first : Bool) (out s : Str), many face wrap i first m out = .ok s →
    ∀ e ∈ m, ∃ t, valueText face wrap i i e.2 = .ok t
  | [], _, _, _, _, _ => fun e he => by cases he
  | (k, v) :: rest, i, first, out, s, h => by
    rw [many] at h
    split at h
    · cases h
    · rename_i t ht
      intro e he
      rcases List.mem_cons.1 he with rfl | he
      · exact ⟨t, ht⟩
      · exact many_each rest _ _ _ _ h e he

theorem leaf_blank (hw : Wraps wrap) (ind i : Nat) (a : α) (s : Str) (hl : Long face a s) (hb : Blank s) (t : Str) :
    leafText face wrap ind i a ≠ .ok t := by
  unfold leafText
  rw [hl.1]
  dsimp only
  rw [if_neg (by have := hl.2; omega)]
  split
  · exact fun h => by cases h
  · rw [(hw s (70 - ind) (by omega)).2 hb]
    exact fun h => by cases h

theorem entry_blank (hw : Wraps wrap) (a : α) (s : Str) (hl : Long face a s) (hb : Blank s) {d : Nat} {k : Str}
    {v : Tree α} {m : MDict α} (he : Entry d k v m) (hv : v = .leaf a) :
    (∀ i out t, flat face wrap i m out ≠ .ok (some t)) ∧ (∀ i first out t, many face wrap i first m out ≠ .ok t) := by
  induction he with
  | here hm =>
    subst hv
    constructor
    · intro i out t h
      obtain ⟨t', ht, _⟩ := flat_each face wrap _ _ _ _ h _ hm
      rw [valueText] at ht
      exact leaf_blank face wrap hw _ _ a s hl hb _ ht
    · intro i first out t h
      obtain ⟨t', ht⟩ := many_each face wrap _ _ _ _ _ h _ hm
      rw [valueText] at ht
      exact leaf_blank face wrap hw _ _ a s hl hb _ ht
  | inside hm _ ih =>
    have ih := ih hv
    constructor
    · intro i out t h
      obtain ⟨t', ht, _⟩ := flat_each face wrap _ _ _ _ h _ hm
      rw [valueText] at ht
      rcases attempt_ok ht with h | ⟨_, h⟩
      · exact ih.1 _ _ _ h
      · exact ih.2 _ _ _ _ h
    · intro i first out t h
      obtain ⟨t', ht⟩ := many_each face wrap _ _ _ _ _ h _ hm
      rw [valueText] at ht
      rcases attempt_ok ht with h | ⟨_, h⟩
      · exact ih.1 _ _ _ h
      · exact ih.2 _ _ _ _ h

theorem line_mem {k : Str} {v : Tree α} : ∀ {m : MDict α}, (k, v) ∈ m →
    (ink (lineT face v)).length ≤ (ink (line face m)).length
  | [], h => by cases h
  | (k', v') :: rest, h => by
    rw [line]
    simp only [ink_append, List.length_append]
    rcases List.mem_cons.1 h with e | e
    · cases e; omega
    · have := line_mem e; omega

theorem line_entry (a : α) {d : Nat} {k : Str} {v : Tree α} {m : MDict α} (he : Entry d k v m) (hv : v = .leaf a) :
    (ink (face a).text).length ≤ (ink (line face m)).length := by
  induction he with
  | here hm =>
    subst hv
    have := line_mem face hm
    rwa [lineT] at this
  | inside hm _ ih =>
    have := line_mem face hm
    rw [lineT] at this
    simp only [ink_append, List.length_append] at this
    have := ih hv
    omega

theorem entry_flat (hw : Wraps wrap) (a : α) (hl : 70 < (ink (face a).text).length) {d : Nat} {k : Str}
    {m : MDict α} (he : Entry d k (.leaf a) m) (i : Nat) (out t : Str) : flat face wrap i m out ≠ .ok (some t) := by
  intro h
  cases he with
  | here hm =>
    obtain ⟨t', ht, hlen⟩ := flat_each face wrap _ _ _ _ h _ hm
    have := (value_content face wrap hw _ _ _ _ ht).1
    rw [lineT] at this
    have h2 := ink_length t'
    rw [this] at h2
    omega
  | inside hm hi =>
    obtain ⟨t', ht, hlen⟩ := flat_each face wrap _ _ _ _ h _ hm
    have := (value_content face wrap hw _ _ _ _ ht).1
    rw [lineT] at this
    have h2 := ink_length t'
    rw [this] at h2
    have h3 := line_entry face a hi rfl
    simp only [ink_append, List.length_append] at h2
    omega

theorem entry_deep (hw : Wraps wrap) (a : α) (s : Str) (hs : face a = .str s) (hl : 70 < (ink s).length) {d : Nat}
    {k : Str} {v : Tree α} {m : MDict α} (he : Entry d k v m) (hv : v = .leaf a) :
    ∀ i, 70 ≤ i + 3 * d → ∀ first out t, many face wrap i first m out ≠ .ok t := by
  have hl' : 70 < (ink (face a).text).length := by rw [hs]; exact hl
  induction he with
  | here hm =>
    subst hv
    intro i hi first out t h
    obtain ⟨t', ht⟩ := many_each face wrap _ _ _ _ _ h _ hm
    rw [valueText] at ht
    unfold leafText at ht
    rw [hs] at ht
    have := ink_length s
    dsimp only at ht
    rw [if_neg (by omega), if_pos (by omega)] at ht
    cases ht
  | inside hm he ih =>
    intro i hi first out t h
    obtain ⟨t', ht⟩ := many_each face wrap _ _ _ _ _ h _ hm
    rw [valueText] at ht
    subst hv
    rcases attempt_ok ht with h | ⟨_, h⟩
    · exact entry_flat face wrap hw a hl' he _ _ _ h
    · exact ih rfl _ (by omega) _ _ _ h

/-! ### the properties -/

/-- **C136.** If no string of more than 70 characters is blank or inside more than 22 blocks, then
`str(metadata)` is a text that shows every entry of the label, in order, inside the braces of the blocks it is
in: but for white space, it is the label on one line. An entry whose value is not such a long string stands in
it as it is: the name, a colon and a space, the value, a comma. -/
theorem C136_printed (hw : Wraps wrap) (m : MDict α)
    (h : ∀ d k a s, Entry d k (.leaf a) m → Long face a s → d ≤ 22 ∧ ¬Blank s) :
    ∃ out, str face wrap m = .ok out ∧ ink out = ink (c!"Metadata({" ++ line face m ++ c!"})") ∧
      ∀ d k a, Entry d k (.leaf a) m → (∀ s, ¬Long face a s) → k ++ c!": " ++ (face a).text ++ c!"," <:+: out := by
  obtain ⟨s, hs⟩ := prettify_some face wrap hw 0 m (fun d k a s he hl => by
    have := h d k a s he hl
    exact ⟨by omega, this.2⟩)
  obtain ⟨h1, h2⟩ := prettify_content face wrap hw 0 m s hs
  refine ⟨_, by unfold str; rw [hs], ?_, ?_⟩
  · rw [ink_append, ink_append, h1]
    simp only [ink_append, List.append_assoc]
    rfl
  · intro d k a he hl
    exact (h2 d k a he hl).trans ⟨c!"Metadata(", c!")", rfl⟩

/-- **C136.** A label that fits in 70 characters is printed on one line. -/
theorem C136_one_line (m : MDict α) (h : (line face m).length ≤ 69) :
    str face wrap m = .ok (c!"Metadata({" ++ line face m ++ c!"})") := by
  unfold str prettify
  rw [flat_line face wrap m 0 _ (by simp; omega)]
  simp [attempt]

/-- **C137.** Limit: `str(metadata)` raises an exception if the label has, anywhere, a string of more than 70
characters that is only white space. -/
theorem C137_blank_fails (hw : Wraps wrap) (m : MDict α) {d : Nat} {k : Str} {a : α} {s : Str}
    (he : Entry d k (.leaf a) m) (hl : Long face a s) (hb : Blank s) : ∃ e, str face wrap m = .error e := by
  have := entry_blank face wrap hw a s hl hb he rfl
  unfold str
  cases hp : prettify face wrap 0 m with
  | error e => exact ⟨e, rfl⟩
  | ok t =>
    rcases attempt_ok hp with h | ⟨_, h⟩
    · exact absurd h (this.1 _ _ _)
    · exact absurd h (this.2 _ _ _ _)

/-- **C137.** Limit: it raises one, too, if a string of more than 70 characters that are not white space is
inside 23 or more blocks. -/
theorem C137_deep_fails (hw : Wraps wrap) (m : MDict α) {d : Nat} {k : Str} {a : α} {s : Str}
    (he : Entry d k (.leaf a) m) (hs : face a = .str s) (hl : 70 < (ink s).length) (hd : 23 ≤ d) :
    ∃ e, str face wrap m = .error e := by
  unfold str
  cases hp : prettify face wrap 0 m with
  | error e => exact ⟨e, rfl⟩
  | ok t =>
    rcases attempt_ok hp with h | ⟨_, h⟩
    · exact absurd h (entry_flat face wrap hw a (by rw [hs]; exact hl) he _ _ _)
    · exact absurd h (entry_deep face wrap hw a s hs hl he rfl _ (by omega) _ _ _)

/-! ### a case -/

/-- a `textwrap.wrap` that cuts the text, without its white space, into lines -/
def cut (s : Str) (w : Nat) : List Str :=
  if w = 0 then [] else
  match ink s with
  | [] => []
  | c :: t => [c :: t]

theorem cut_wraps : Wraps cut := by
  intro s w hw
  unfold cut
  rw [if_neg (by omega)]
  constructor
  · split
    · rename_i h; rw [h]; rfl
    · rename_i c t h
      rw [List.flatten_cons, List.flatten_nil, List.append_nil, ← h]
      unfold ink
      rw [List.filter_filter]
      simp
  · intro hb
    rw [ink_blank.1 hb]

example : str (fun (s : Str) => Face.str s) cut
    [(c!"A", .leaf c!"x"), (c!"B", .node [(c!"C", .leaf c!"y z")])] =
      .ok c!"Metadata({A: x, B: {C: y z, }, })" := by
  exact C136_one_line _ _ _ (by decide)

/-- a long label: on many lines -/
example : ∃ out, str (fun (s : Str) => Face.str s) cut
    [(c!"A", .leaf (List.replicate 80 'x')), (c!"B", .node [(c!"C", .leaf c!"y z")])] = .ok out ∧
      c!"C: y z," <:+: out := by
  obtain ⟨out, h, _, h2⟩ := C136_printed (fun (s : Str) => Face.str s) cut cut_wraps
    [(c!"A", .leaf (List.replicate 80 'x')), (c!"B", .node [(c!"C", .leaf c!"y z")])]
    (by
      intro d k a s he hl
      rcases entry_cons he with ⟨_, hv⟩ | ⟨_, _, hv, _⟩ | he
      · cases hv
        cases he with
        | here _ =>
          refine ⟨by omega, fun hb => ?_⟩
          have hs : List.replicate 80 'x' = s := by injection hl.1
          have := hb 'x' (by rw [← hs]; simp)
          revert this; decide
        | inside hm hi =>
          rcases List.mem_cons.1 hm with e | hm
          · cases e
          · cases List.mem_singleton.1 hm
            rcases entry_cons hi with ⟨_, hv⟩ | ⟨_, _, hv, _⟩ | hi
            · have hc : (List.replicate 80 'x' : Str) = c!"y z" := by injection hv with hv; exact hv.symm
              exact absurd hc (by decide)
            · cases hv
            · cases hi with
              | here h => cases h
              | inside h => cases h
      · cases hv
      · cases he with
        | here hm => cases List.mem_singleton.1 hm
        | inside hm hi =>
          cases List.mem_singleton.1 hm
          rcases entry_cons hi with ⟨_, hv⟩ | ⟨_, _, hv, _⟩ | hi
          · cases hv
            have := hl.2
            have hs : c!"y z" = s := by injection hl.1
            rw [← hs] at this
            exact absurd this (by decide)
          · cases hv
          · cases hi with
            | here h => cases h
            | inside h => cases h)
  refine ⟨out, h, ?_⟩
  refine h2 1 c!"C" c!"y z" (.inside (List.mem_cons_of_mem _ (List.mem_cons_self ..)) (.here (List.mem_cons_self ..)))
    ?_
  intro s hl
  have hs : c!"y z" = s := by injection hl.1
  have := hl.2
  rw [← hs] at this
  exact absurd this (by decide)

/-- a string of 80 blanks: no text -/
example : ∃ e, str (fun (s : Str) => Face.str s) cut [(c!"NOTE", .leaf (List.replicate 80 ' '))] = .error e :=
  C137_blank_fails _ _ cut_wraps _ (.here (List.mem_cons_self ..)) ⟨rfl, by decide⟩
    (fun c hc => by rw [List.eq_of_mem_replicate hc]; decide)

end Verif.Prettify
