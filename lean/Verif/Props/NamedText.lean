/-
C145, C146, C147: text tables of which the label gives only the names of columns.
-/
import Verif.Spec.NamedText
import Verif.Props.MissionCsv

namespace Verif.NamedText
open Verif.Py Verif.Ascii Verif.Ascii.Spec Verif.LooseText Verif.LooseText.Spec Spec

theorem table_rows (infer : List Str → Inferred) (missing : Str → Bool) (names : List Str) (rows : List (List Str))
    (hf : Fits names.length rows) : ∃ out, table infer missing names rows = .ok out ∧ Table infer missing rows 0 names out := by
  unfold table
  simp only [rectangle_fits hf, ne_eq, not_true_eq_false, if_false, columnsOf_field]
  refine ⟨_, rfl, ?_, ?_⟩
  · rw [List.map_fst_zip]
    simp
  · intro k q hq
    obtain ⟨hk, rfl⟩ := List.getElem?_eq_some_iff.1 hq
    rw [List.getElem_zip]
    simp only [List.getElem_map, List.getElem_range, Nat.zero_add]
    exact column_shown infer missing _

theorem table_mismatch (infer : List Str → Inferred) (missing : Str → Bool) (names : List Str) (rows : List (List Str))
    (n : Nat) (hf : Fits n rows) (hn : n ≠ names.length) : table infer missing names rows = .error .mismatch := by
  unfold table
  rw [rectangle_fits hf]
  exact if_pos hn

theorem kept_filter {p : Str → Prop} {b : Str → Bool} (hb : ∀ n, b n = true ↔ p n) {ns ks : List Str} (h : Kept p ns ks) :
    ns.filter b = ks := by
  induction h with
  | nil => rfl
  | keep h _ ih => rw [List.filter_cons_of_pos ((hb _).2 h), ih]
  | skip h _ ih => rw [List.filter_cons_of_neg (fun e => h ((hb _).1 e)), ih]

theorem contains_not (n : Str) : (!contains n c!"PLACEHOLDER") = true ↔ ¬ c!"PLACEHOLDER" <:+: n := by
  rw [Bool.not_eq_true', ← Bool.not_eq_true, Datatypes.contains_iff]

theorem namesFor_kept {r : Reader} {names ks : List Str} (h : Kept (Uses r) names ks) : namesFor r names = ks := by
  cases r with
  | gas =>
    have := kept_filter (b := fun _ => true) (fun n => ⟨fun _ => trivial, fun _ => rfl⟩) h
    rw [List.filter_true] at this
    exact this
  | odf =>
    refine kept_filter (fun n => ?_) h
    rw [Bool.not_eq_true', ← Bool.not_eq_true]
    unfold startsWith
    rw [List.isPrefixOf_iff_prefix]
    exact Iff.rfl
  | curve => exact kept_filter contains_not h
  | map => exact kept_filter contains_not h
  | lecp => exact kept_filter contains_not h

theorem wordLines_rows {content : Str} {before lines : List Str} (h : HasLines content (before ++ lines))
    {rows : List (List Str)} (hr : WordRows lines rows) : wordLines before.length content = rows := by
  obtain ⟨all, ha, rfl⟩ := hr
  have hf := forall₂_drop (fileLines_ended h) before.length
  rw [List.drop_left' rfl] at hf
  unfold wordLines
  revert hf
  generalize (Locate.fileLines content).drop before.length = fs
  clear h
  intro hf
  have hm : fs.map Xml.words = all := by
    induction ha generalizing fs with
    | nil => cases hf; rfl
    | @cons l ws ls all hw _ ih =>
      obtain ⟨f, fs', h1, h2, rfl⟩ := List.forall₂_cons_left_iff.1 hf
      rw [List.map_cons, words_ended h1 hw, ih fs' h2]
  rw [hm]
  exact List.filter_congr (fun r _ => by cases r <;> simp)

theorem linesBefore_eq (r : Reader) : skipFor r = linesBefore r := by cases r <;> rfl

/-- **C145.** Tables divided at white space (light curves of Halley, Odyssey maps, Voyager LECP, Mars Express ODF,
Ulysses GAS): whatever positions the label gives, column `k` has the `k`th of the names that the reader uses, and shows
the word at place `k` of every line of the table that has words. -/
theorem C145_words (infer : List Str → Inferred) (missing : Str → Bool) (r : Reader) (content : Str)
    (before lines : List Str) (h : HasLines content (before ++ lines)) (hb : before.length = linesBefore r)
    (rows : List (List Str)) (hr : WordRows lines rows) (names ks : List Str) (hk : Kept (Uses r) names ks)
    (hf : Fits ks.length rows) :
    ∃ out, words infer missing r content names = .ok out ∧ Table infer missing rows 0 ks out := by
  unfold words
  rw [namesFor_kept hk, linesBefore_eq, ← hb, wordLines_rows h hr]
  exact table_rows infer missing ks rows hf

/-- **C145**, errors: if the first line has not as many words as there are names, there is no table. -/
theorem C145_mismatch (infer : List Str → Inferred) (missing : Str → Bool) (r : Reader) (content : Str)
    (before lines : List Str) (h : HasLines content (before ++ lines)) (hb : before.length = linesBefore r)
    (rows : List (List Str)) (hr : WordRows lines rows) (names ks : List Str) (hk : Kept (Uses r) names ks)
    (n : Nat) (hf : Fits n rows) (hn : n ≠ ks.length) :
    words infer missing r content names = .error .mismatch := by
  unfold words
  rw [namesFor_kept hk, linesBefore_eq, ← hb, wordLines_rows h hr]
  exact table_mismatch infer missing ks rows n hf hn

theorem commas_rows (infer : List Str → Inferred) (missing : Str → Bool) {content : Str} {lines : List Str}
    (h : HasLines content lines) {rows : List (List Str)} (hr : Delimited ',' lines rows) (names : List Str)
    (hf : Fits names.length rows) :
    ∃ out, commas infer missing content names = .ok out ∧ Table infer missing rows 0 names out := by
  unfold commas
  rw [tokenize_text MissionCsv.comma_plain h hr]
  exact table_rows infer missing names rows hf

/-- **C146.** A MER UHFD spreadsheet has all lines of its file, whatever ROWS says: column `k` has the `k`th name and
shows the field at place `k` of every line. -/
theorem C146_uhfd (infer : List Str → Inferred) (missing : Str → Bool) (content : Str) (lines : List Str)
    (h : HasLines content lines) (rows : List (List Str)) (hr : Delimited ',' lines rows) (names : List Str)
    (hf : Fits names.length rows) :
    ∃ out, uhfd infer missing content names = .ok out ∧ Table infer missing rows 0 names out :=
  commas_rows infer missing h hr names hf

theorem nulls_filter {s t : Str} (h : WithNulls s t) : t.filter (fun c => c.toNat ≠ 0) = s := by
  induction h with
  | nil => rfl
  | char hc _ ih => rw [List.filter_cons_of_pos (by simpa using hc), ih]
  | null hc _ ih => rw [List.filter_cons_of_neg (by simpa using hc), ih]

/-- **C146**, Magellan geometry tables: null bytes anywhere in the file do not matter. -/
theorem C146_geom (infer : List Str → Inferred) (missing : Str → Bool) (content text : Str) (hw : WithNulls text content)
    (lines : List Str) (h : HasLines text lines) (rows : List (List Str)) (hr : Delimited ',' lines rows)
    (names ks : List Str) (hk : Kept (fun n => ¬ c!"PLACEHOLDER" <:+: n) names ks) (hf : Fits ks.length rows) :
    ∃ out, geom infer missing content names = .ok out ∧ Table infer missing rows 0 ks out := by
  unfold geom
  rw [nulls_filter hw, kept_filter contains_not hk]
  exact commas_rows infer missing h hr ks hf

theorem remove_mid (x : Str) (a b : List Str) (h : x ∉ a) : remove x (a ++ x :: b) = .ok (a ++ b) := by
  unfold remove
  rw [if_pos (by simp), List.erase_append_right _ h, List.erase_cons_head]

theorem fileName_of {path file : Str} (h : FileName path file) : fileName path = file := by
  unfold fileName
  have aux : ∀ (f d : Str), '/' ∉ f → (f.reverse ++ d).takeWhile (fun c => c ≠ '/') =
      f.reverse ++ d.takeWhile (fun c => c ≠ '/') := by
    intro f d hf
    rw [List.takeWhile_append_of_pos]
    intro c hc
    have : c ≠ '/' := fun e => hf (by rw [← e]; exact List.mem_reverse.1 hc)
    simpa using this
  cases h with
  | alone hf =>
    have := aux path [] hf
    rw [List.append_nil, List.takeWhile_nil, List.append_nil] at this
    rw [this, List.reverse_reverse]
  | @within d f hf =>
    rw [List.reverse_append, aux f _ hf, List.reverse_append]
    simp

/-- **C147.** Summary tables of the Viking seismometer are divided at white space: the columns have the names of the
label that are in the file, and in tables of events and winds one more. -/
theorem C147_summary (infer : List Str → Inferred) (missing : Str → Bool) (path file content : Str)
    (hp : FileName path file) (hfile : c!"summary" <:+: file) (lines : List Str) (h : HasLines content lines)
    (rows : List (List Str)) (hr : WordRows lines rows) (names ks out : List Str)
    (hk : Kept (fun n => ¬ c!"PLACEHOLDER" <:+: n) names ks) (ho : Summary file ks out) (hf : Fits out.length rows) :
    ∃ t, seis infer missing path content names = .ok t ∧ Table infer missing rows 0 out t := by
  have hw : wordLines 0 content = rows := wordLines_rows (before := []) h hr
  unfold seis
  simp only [kept_filter contains_not hk, fileName_of hp]
  rw [if_pos ((Datatypes.contains_iff _ _).2 hfile)]
  cases ho with
  | plain h1 h2 =>
    rw [remove_mid _ _ _ h2]
    simp only
    rw [if_neg (fun e => h1 ((Datatypes.contains_iff _ _).1 e)), hw]
    exact table_rows infer missing _ rows hf
  | @wind a b p q h1 h2 h3 h4 =>
    rw [remove_mid _ _ _ h2]
    simp only
    rw [if_pos ((Datatypes.contains_iff _ _).2 h1), h3, List.take_left' h4, List.drop_left' h4, hw]
    have e : p ++ [c!"ORIGINAL_LINES_COUNT"] ++ q = p ++ c!"ORIGINAL_LINES_COUNT" :: q := by simp
    rw [e]
    exact table_rows infer missing _ rows hf

/-- **C147**, raw tables: divided at commas, of events without SEISMIC_SOL -/
theorem C147_raw (infer : List Str → Inferred) (missing : Str → Bool) (path file content : Str)
    (hp : FileName path file) (hfile : ¬ c!"summary" <:+: file) (lines : List Str) (h : HasLines content lines)
    (rows : List (List Str)) (hr : Delimited ',' lines rows) (names ks out : List Str)
    (hk : Kept (fun n => ¬ c!"PLACEHOLDER" <:+: n) names ks) (ho : Raw file ks out) (hf : Fits out.length rows) :
    ∃ t, seis infer missing path content names = .ok t ∧ Table infer missing rows 0 out t := by
  unfold seis
  simp only [kept_filter contains_not hk, fileName_of hp]
  rw [if_neg (fun e => hfile ((Datatypes.contains_iff _ _).1 e))]
  cases ho with
  | event h1 h2 =>
    rw [if_pos ((Datatypes.contains_iff _ _).2 h1), remove_mid _ _ _ h2]
    exact commas_rows infer missing h hr _ hf
  | high h1 h2 =>
    rw [if_neg (fun e => h1 ((Datatypes.contains_iff _ _).1 e)), if_pos ((Datatypes.contains_iff _ _).2 h2)]
    exact commas_rows infer missing h hr _ hf

/-- **C147**, errors: a file with another name -/
theorem C147_unknown (infer : List Str → Inferred) (missing : Str → Bool) (path file content : Str)
    (hp : FileName path file) (h1 : ¬ c!"summary" <:+: file) (h2 : ¬ c!"event" <:+: file) (h3 : ¬ c!"high" <:+: file)
    (names : List Str) : seis infer missing path content names = .error .value := by
  unfold seis
  simp only [fileName_of hp]
  rw [if_neg (fun e => h1 ((Datatypes.contains_iff _ _).1 e)), if_neg (fun e => h2 ((Datatypes.contains_iff _ _).1 e)),
    if_neg (fun e => h3 ((Datatypes.contains_iff _ _).1 e))]

/-! ### concrete cases -/

example : words asText (fun _ => false) .odf c!" 1\t2 \r\n\n 3  4" [c!"A", c!"PLACEHOLDER_0", c!"B"] =
    .ok [(c!"A", .texts [some c!"1", some c!"3"]), (c!"B", .texts [some c!"2", some c!"4"])] := rfl

example : Kept (Uses .odf) [c!"A", c!"PLACEHOLDER_0", c!"X_PLACEHOLDER"] [c!"A", c!"X_PLACEHOLDER"] :=
  .keep (by unfold Uses; decide) (.skip (by unfold Uses; decide) (.keep (by unfold Uses; decide) .nil))

theorem blank_nil' : Xml.Spec.Blank [] := fun _ h => by cases h

theorem blank_one : Xml.Spec.Blank c!" " := fun c h => by
  rw [List.mem_singleton.1 h]; decide

example : WordRows [c!" 1\t2 ", [], c!"3 4"] [[c!"1", c!"2"], [c!"3", c!"4"]] :=
  ⟨[[c!"1", c!"2"], [], [c!"3", c!"4"]],
    .cons (.cons c!" " c!"1" c!"2 " '\t' [c!"2"] blank_one (by decide) (by decide) (by decide) (by decide)
      (.last [] c!"2" c!" " blank_nil' (by decide) (by decide) blank_one))
    (.cons (.nil [] blank_nil') (.cons (.cons [] c!"3" c!"4" ' ' [c!"4"] blank_nil' (by decide) (by decide) (by decide)
      (by decide) (.last [] c!"4" [] blank_nil' (by decide) (by decide) blank_nil')) .nil)), rfl⟩

example : geom asText (fun _ => false) (c!"1,2" ++ [Char.ofNat 0, Char.ofNat 0] ++ c!"\n3,4\n") [c!"A", c!"B", c!"PLACEHOLDER_0"] =
    .ok [(c!"A", .texts [some c!"1", some c!"3"]), (c!"B", .texts [some c!"2", some c!"4"])] := rfl

example : seis asText (fun _ => false) c!"/summary/EVENT1.CSV" c!"1,2\n3,4\n" [c!"A", c!"SEISMIC_SOL", c!"B"] =
    .ok [(c!"A", .texts [some c!"1", some c!"3"]), (c!"B", .texts [some c!"2", some c!"4"])] := rfl

example : Summary c!"event_wind_summary.tab" [c!"1", c!"2", c!"SEISMIC_TIME_SOLS", c!"3", c!"4", c!"5", c!"6", c!"7", c!"8"]
    [c!"1", c!"2", c!"3", c!"4", c!"5", c!"6", c!"7", c!"ORIGINAL_LINES_COUNT", c!"8"] :=
  .wind (a := [c!"1", c!"2"]) (b := [c!"3", c!"4", c!"5", c!"6", c!"7", c!"8"])
    (p := [c!"1", c!"2", c!"3", c!"4", c!"5", c!"6", c!"7"]) (q := [c!"8"]) ⟨[], c!".tab", rfl⟩ (by decide) rfl rfl

end Verif.NamedText
