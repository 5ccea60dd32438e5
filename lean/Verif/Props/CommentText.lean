/-
C150: tables with comments.
-/
import Verif.Spec.CommentText
import Verif.Props.HeadedText

namespace Verif.CommentText
open Verif.Py Verif.Ascii Verif.Ascii.Spec Verif.LooseText Verif.LooseText.Spec Verif.NamedText Verif.NamedText.Spec Spec

theorem uncomment_all {f : Str} (h : 'V' ∉ f) : uncomment f = f := if_neg h

theorem uncomment_cut {a b : Str} (h : 'V' ∉ a) : uncomment (a ++ 'V' :: b) = a ++ c!"\n" := by
  unfold uncomment
  rw [if_pos (by simp), List.takeWhile_append_of_pos (fun c hc => by
    have : c ≠ 'V' := fun e => h (by rw [← e]; exact hc)
    simpa using this)]
  simp

theorem visible_oneLine {l v : Str} (h : Visible l v) (ho : OneLine l) : OneLine v := by
  cases h with
  | all _ => exact ho
  | cut _ => exact ⟨fun hc => ho.1 (List.mem_append_left _ hc), fun hc => ho.2 (List.mem_append_left _ hc)⟩

theorem fileLines_line {l e text : Str} (hl : OneLine l) (he : e = c!"\n" ∨ e = c!"\r\n") :
    Locate.fileLines (l ++ e ++ text) = (l ++ e) :: Locate.fileLines text := by
  rcases he with rfl | rfl
  · exact fileLines_lf hl.1 text
  · have : l ++ c!"\r\n" ++ text = (l ++ c!"\r") ++ c!"\n" ++ text := by simp
    rw [this, fileLines_lf (by
      rw [List.mem_append, not_or]
      exact ⟨hl.1, by decide⟩)]
    simp

/-- the text without comments has the visible parts as lines (but for an empty one at its end) -/
theorem uncommented {content : Str} {lines : List Str} (h : HasLines content lines) {vis : List Str}
    (hv : List.Forall₂ Visible lines vis) :
    ∃ vis', HasLines ((Locate.fileLines content).map uncomment).flatten vis' ∧ full vis' = full vis := by
  induction h generalizing vis with
  | nil => cases hv; exact ⟨[], .nil, rfl⟩
  | @last l hl hne =>
    obtain ⟨v, vs, h1, h2, rfl⟩ := List.forall₂_cons_left_iff.1 hv
    cases h2
    rw [fileLines_last hl.1 hne]
    refine ⟨[v], ?_, rfl⟩
    rw [List.map_cons, List.map_nil, List.flatten_cons, List.flatten_nil, List.append_nil]
    cases h1 with
    | all hn => rw [uncomment_all hn]; exact .last hl hne
    | @cut a b hn =>
      rw [uncomment_cut hn]
      have := HasLines.line (visible_oneLine (.cut (b := b) hn) hl) (.inl rfl) .nil
      rwa [List.append_nil] at this
  | @line l e text ls hl he hls ih =>
    obtain ⟨v, vs, h1, h2, rfl⟩ := List.forall₂_cons_left_iff.1 hv
    obtain ⟨vis', h3, h4⟩ := ih h2
    refine ⟨v :: vis', ?_, full_cons v h4⟩
    rw [fileLines_line hl he, List.map_cons, List.flatten_cons]
    have hve : 'V' ∉ e := by rcases he with rfl | rfl <;> decide
    cases h1 with
    | all hn =>
      rw [uncomment_all (by rw [List.mem_append, not_or]; exact ⟨hn, hve⟩)]
      exact .line hl he h3
    | @cut a b hn =>
      rw [List.append_assoc, List.cons_append, uncomment_cut hn]
      exact .line (visible_oneLine (.cut (b := b) hn) hl) (.inl rfl) h3

/-- **C150.** Voyager 1 LECP tables at Saturn: of every line only what is before the first `V` is read, and lines of
which nothing is left (those that begin with VOYAGER) are left out, wherever they are. The first line that is left has
as many fields as there are names; the table shows those after it. -/
theorem C150_comments (infer : List Str → Inferred) (missing : Str → Bool) (content : Str) (lines vis : List Str)
    (h : HasLines content lines) (hv : List.Forall₂ Visible lines vis) (header : List Str) (rows : List (List Str))
    (hr : Delimited ',' vis (header :: rows)) (names ks : List Str)
    (hk : Kept (fun n => ¬ c!"PLACEHOLDER" <:+: n) names ks) (hn : ks.length = header.length)
    (hw : ∀ r ∈ rows, r.length ≤ ks.length) :
    ∃ t, saturn infer missing content names = .ok t ∧ t.labels = rows.map (fun _ => []) ∧
      Table infer missing rows 0 ks t.columns := by
  obtain ⟨vis', h1, h2⟩ := uncommented h hv
  unfold saturn
  rw [kept_filter contains_not hk]
  exact HeadedText.headed_rows (before := []) infer missing MissionCsv.comma_plain h1 (delimited_full hr h2) ks hn hw

/-! ### concrete cases -/

example : saturn asText (fun _ => false) c!"VOYAGER 1,a\nx,y\n1,2\nVOYAGER,b\r\n3,4\n" [c!"A", c!"PLACEHOLDER_0", c!"B"] =
    .ok ⟨[[], []], [(c!"A", .texts [some c!"1", some c!"3"]), (c!"B", .texts [some c!"2", some c!"4"])]⟩ := rfl

/-- a text with a `V` in it is cut -/
example : saturn asText (fun _ => false) c!"x,y\nOVER,2\n" [c!"A", c!"B"] =
    .ok ⟨[[]], [(c!"A", .texts [some c!"O"]), (c!"B", .texts [some []])]⟩ := rfl

example : List.Forall₂ Visible [c!"VOYAGER", c!"1,2V3"] [[], c!"1,2"] :=
  .cons (.cut (a := []) (b := c!"OYAGER") (by decide)) (.cons (.cut (a := c!"1,2") (b := c!"3") (by decide)) .nil)

end Verif.CommentText
