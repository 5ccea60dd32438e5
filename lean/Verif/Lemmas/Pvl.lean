import Verif.Spec.Pvl
import Verif.Lemmas.Str

namespace Verif.Pvl
open Verif.Py Spec

/-- Append a whole subtree list to the innermost open aggregation. -/
def Parser.extend (p : Parser) (t : MDict Str) (ks : List Str) : Parser :=
  match p.stack with
  | [] => { p with root := p.root ++ t, params := p.params ++ ks }
  | (n, agg) :: rest => { p with stack := (n, agg ++ t) :: rest, params := p.params ++ ks }

theorem Parser.extend_nil (p : Parser) : p.extend [] [] = p := by
  unfold Parser.extend
  split <;> rename_i h <;> simp [← h]

theorem Parser.extend_add (p : Parser) (k : Str) (v : Tree Str) (t : MDict Str) (ks : List Str) :
    (p.add k v).extend t ks = p.extend ((k, v) :: t) (k :: ks) := by
  rcases p with ⟨r, st, ps⟩
  cases st with
  | nil => simp [Parser.extend, Parser.add]
  | cons a st => simp [Parser.extend, Parser.add]

theorem startsWith_closer (c : Str) : startsWith c c!"END" = true ↔ Closer c := startsWith_iff c _

theorem foldl_written {t : MDict Str} {ss : List Stmt} (h : Written t ss) (p : Parser) :
    ss.foldl Parser.step p = p.extend t (keys t) := by
  induction h generalizing p with
  | nil => simp [keys, Parser.extend_nil]
  | @leaf k v rest ss hk hw ih =>
    have hs : p.step (k, v) = p.add k (.leaf v) := by
      unfold Parser.step
      rw [if_neg (show ¬ (k, v).1 ∈ blockInitials from hk.1), if_neg]
      intro h; exact hk.2 ((startsWith_closer k).1 h)
    simp only [List.foldl_cons, hs, ih, Parser.extend_add, keys, keysT, List.cons_append, List.nil_append]
  | @block o name c x kids rest body ss ho hc hco hk hr ihk ihr =>
    have h1 : p.step (o, name) = p.stepIn name := by
      unfold Parser.step
      rw [if_pos (show (o, name).1 ∈ blockInitials from ho)]
    have h2 : ∀ q : Parser, q.step (c, x) = q.stepOut := by
      intro q
      unfold Parser.step
      rw [if_neg (show ¬ (c, x).1 ∈ blockInitials from hco), if_pos ((startsWith_closer c).2 hc)]
    simp only [List.foldl_cons, List.foldl_append, h1, ihk, h2, ihr, keys, keysT]
    rcases p with ⟨r, st, ps⟩
    cases st <;> simp [Parser.stepIn, Parser.extend, Parser.stepOut, Parser.add]

/-! ### Text level -/

theorem stripComments_id (s : Str) (h : ¬ ∃ a b, s = a ++ '/' :: '*' :: b) : stripComments s = s := by
  fun_induction stripComments s with
  | case1 => rfl
  | case2 cs rest hh ih => exact absurd ⟨[], cs, rfl⟩ h
  | case3 cs hh ih => exact absurd ⟨[], cs, rfl⟩ h
  | case4 c cs hne ih =>
    congr 1
    apply ih
    rintro ⟨a, b, e⟩
    exact h ⟨c :: a, b, by simp [e]⟩

theorem trimmed_strip {l : Str} (h : Trimmed l) : strip l = l := strip_self l h.1 h.2.1

theorem physical_noLF {phys ls : List Str} (h : Physical phys ls) : ∀ l ∈ phys, '\n' ∉ l := by
  induction h with
  | nil => simp
  | blank hb hn _ ih => simp only [List.forall_mem_cons]; exact ⟨hn, ih⟩
  | line _ h1 _ h2 ht _ _ ih =>
    simp only [List.forall_mem_cons]
    refine ⟨?_, ih⟩
    simp only [List.mem_append, not_or]
    exact ⟨⟨h1, ht.2.2⟩, h2⟩

theorem physical_trim {phys ls : List Str} (h : Physical phys ls) :
    (phys.map strip).filter (fun l => !l.isEmpty) = ls := by
  induction h with
  | nil => rfl
  | blank hb hn _ ih => simp [strip_blank _ hb, ih]
  | @line w₁ l w₂ phys ls hb₁ _ hb₂ _ ht hne _ ih =>
    simp only [List.map_cons, strip_pad w₁ l w₂ hb₁ hb₂ ht.1 ht.2.1, List.filter_cons]
    cases l with
    | nil => exact absurd rfl hne
    | cons a l => simp [ih]

theorem trimmedLines_physical {phys ls : List Str} (h : Physical phys ls) :
    trimmedLines (join c!"\n" phys) = ls := by
  unfold trimmedLines
  by_cases hp : phys = []
  · subst hp
    cases h
    rfl
  · rw [splitOn_join '\n' phys hp (physical_noLF h), physical_trim h]

theorem blockTerminal_none_iff (l : Str) (hn : '\n' ∉ l) :
    blockTerminal l = none ↔ (l ≠ c!"END" ∧ ¬ ∃ r, l = c!"END_OBJECT" ++ r) := by
  unfold blockTerminal
  rw [← startsWith_iff]
  split
  · rename_i h; simp [h]
  · rename_i h
    split
    · rename_i h2
      rcases h2 with h2 | h2
      · simp [h2]
      · subst h2; simp at hn
    · rename_i h2
      simp only [not_or] at h2
      simp [h, h2.1]

theorem isAssignmentLine_of_upper {l : Str} (he : '=' ∈ l) (hu : UpperHead l) :
    isAssignmentLine l = true := by
  unfold isAssignmentLine
  rw [if_neg (by simpa using he)]
  have : upper (l.take 8) = l.take 8 := (upper_eq_iff _).2 hu
  simp [this]

theorem continuation_not_assignment {l : Str} (h : Continuation l) : isAssignmentLine l = false := by
  obtain ⟨ht, hne, h⟩ := h
  unfold isAssignmentLine
  rcases h with ⟨he, hu⟩ | ⟨he, h1, h2⟩
  · rw [if_neg (by simpa using he)]
    have : upper (l.take 8) ≠ l.take 8 := fun e => hu ((upper_eq_iff _).1 e)
    simp only [beq_eq_false_iff_ne]
    exact fun e => this e.symm
  · rw [if_pos he, (blockTerminal_none_iff l ht.2.2).2 ⟨h1, h2⟩]
    rfl

/-- A laid-out statement's lines: one assignment line, then continuation lines. -/
theorem layout_shape {ls : List Str} {s : Stmt} (h : Layout ls s) :
    ∃ a conts, ls = a :: conts ∧ isAssignmentLine a = true ∧ (∀ l ∈ conts, Continuation l) ∧
      groupStatement ls = some s := by
  cases h with
  | @assign key w₁ w₂ head conts hk hkne hke hh hhe hw₁ _ hw₂ _ _ hu hno hc =>
    refine ⟨_, conts, rfl, isAssignmentLine_of_upper (by simp) hu, hc, ?_⟩
    have hmem : '=' ∈ key ++ w₁ ++ c!"=" ++ w₂ ++ head := by simp
    have hterm : blockTerminal (key ++ w₁ ++ c!"=" ++ w₂ ++ head) = none := by
      rw [blockTerminal_none_iff _ (by
        simp only [List.mem_append, not_or]
        refine ⟨⟨⟨⟨hk.2.2, ?_⟩, by decide⟩, ?_⟩, hh.2.2⟩ <;> assumption)]
      refine ⟨?_, hno⟩
      intro e; rw [e] at hmem; revert hmem; decide
    have hblank : ∀ w : Str, Blank w → '=' ∉ w := fun w hw hm => by
      have := hw _ hm; revert this; decide
    have hsplit : splitOn '=' (key ++ w₁ ++ c!"=" ++ w₂ ++ head) = [key ++ w₁, w₂ ++ head] := by
      have e : key ++ w₁ ++ c!"=" ++ w₂ ++ head = (key ++ w₁) ++ '=' :: (w₂ ++ head) := by simp
      rw [e, splitOn_append _ _ _ (by simp [hke, hblank _ hw₁]),
        splitOn_notMem _ _ (by simp [hhe, hblank _ hw₂])]
    have s1 : strip (key ++ w₁) = key := by
      have := strip_pad [] key w₁ (by simp) hw₁ hk.1 hk.2.1; simpa using this
    have s2 : strip (w₂ ++ head) = head := by
      have := strip_pad w₂ head [] hw₂ (by simp) hh.1 hh.2.1; simpa using this
    have s3 : conts.map strip = conts := by
      have : conts.map strip = conts.map id :=
        List.map_congr_left (fun l hl => trimmed_strip (hc l hl).1)
      simpa using this
    unfold groupStatement
    simp only [hterm, hsplit, s1, s2, s3]
  | @endObject rest conts ht hu hc =>
    have hterm : blockTerminal (c!"END_OBJECT" ++ rest) = some c!"END_OBJECT" := by
      unfold blockTerminal
      rw [if_pos ((startsWith_iff _ _).2 ⟨rest, rfl⟩)]
    refine ⟨_, conts, rfl, ?_, hc, ?_⟩
    · by_cases he : '=' ∈ c!"END_OBJECT" ++ rest
      · refine isAssignmentLine_of_upper he (hu ?_)
        simpa using he
      · unfold isAssignmentLine
        rw [if_pos he, hterm]; rfl
    · unfold groupStatement; simp only [hterm]
  | @fin conts hc =>
    exact ⟨_, conts, rfl, by decide, hc, by unfold groupStatement; rfl⟩

/-- Continuation lines are absorbed by the current group. -/
theorem splitBefore_conts (acc conts rest : List Str) (hc : ∀ l ∈ conts, isAssignmentLine l = false) :
    splitBefore isAssignmentLine acc (conts ++ rest)
      = splitBefore isAssignmentLine (conts.reverse ++ acc) rest := by
  induction conts generalizing acc with
  | nil => rfl
  | cons l conts ih =>
    have h1 := hc l (by simp)
    simp only [List.cons_append, splitBefore, h1, Bool.false_and, Bool.false_eq_true, if_false]
    rw [ih _ (fun x hx => hc x (by simp [hx]))]
    simp

theorem splitBefore_layouts {ls : List Str} {ss : List Stmt} (h : Layouts ls ss) (acc : List Str)
    (hacc : acc ≠ []) :
    (splitBefore isAssignmentLine acc ls).filterMap groupStatement
      = (groupStatement acc.reverse).toList ++ ss := by
  induction h generalizing acc with
  | nil =>
    have : acc.isEmpty = false := by cases acc <;> simp_all
    simp only [splitBefore, this, Bool.false_eq_true, if_false, List.filterMap_cons, List.filterMap_nil,
      List.append_nil]
    cases groupStatement acc.reverse <;> rfl
  | @cons ls rest s ss hl _ ih =>
    obtain ⟨a, conts, rfl, ha, hc, hg⟩ := layout_shape hl
    have hne : acc.isEmpty = false := by cases acc <;> simp_all
    simp only [List.cons_append, splitBefore, ha, hne, Bool.not_false, Bool.and_true, if_true]
    rw [splitBefore_conts _ _ _ (fun l hl => continuation_not_assignment (hc l hl)),
      List.filterMap_cons, ih _ (by simp)]
    simp only [List.reverse_append, List.reverse_reverse, List.reverse_cons, List.reverse_nil,
      List.nil_append, List.singleton_append, hg]
    cases groupStatement acc.reverse <;> rfl

theorem chunkStatements_layouts {ls : List Str} {ss : List Stmt} (h : Layouts ls ss) :
    chunkStatements ls = ss := by
  unfold chunkStatements
  cases h with
  | nil => rfl
  | @cons ls rest s ss hl hr =>
    obtain ⟨a, conts, rfl, ha, hc, hg⟩ := layout_shape hl
    have : splitBefore isAssignmentLine [] (a :: conts ++ rest)
        = splitBefore isAssignmentLine (conts.reverse ++ [a]) rest := by
      simp only [List.cons_append, splitBefore, ha, List.isEmpty_nil, Bool.not_true, Bool.and_false,
        Bool.false_eq_true, if_false]
      exact splitBefore_conts _ _ _ (fun l hl => continuation_not_assignment (hc l hl))
    rw [this, splitBefore_layouts hr _ (by simp)]
    simp [hg]

end Verif.Pvl

namespace Verif.Pvl
open Verif.Py Spec

theorem commentEnd_line (body b : Str) (h1 : '\r' ∉ body) (h2 : '\n' ∉ body)
    (h3 : ¬ ∃ x y, body = x ++ '/' :: '*' :: y) (e : Char) (he : e = '\n' ∨ e = '\r') :
    commentEnd (body ++ e :: b) = some b := by
  induction body with
  | nil => rcases he with rfl | rfl <;> rfl
  | cons c cs ih =>
    have hc1 : c ≠ '\r' := fun e => h1 (by simp [e])
    have hc2 : c ≠ '\n' := fun e => h2 (by simp [e])
    have := ih (fun m => h1 (by simp [m])) (fun m => h2 (by simp [m]))
      (fun ⟨x, y, hh⟩ => h3 ⟨c :: x, y, by simp [hh]⟩)
    rw [List.cons_append]
    unfold commentEnd
    split
    · simp at *
    · rename_i hh; simp at hh; exact absurd hh.1 hc1
    · rename_i hh; simp at hh; exact absurd hh.1 hc2
    · rename_i cs' hh
      simp only [List.cons.injEq] at hh
      obtain ⟨rfl, hh⟩ := hh
      cases cs with
      | nil => rcases he with rfl | rfl <;> simp at hh
      | cons d ds =>
        simp only [List.cons_append, List.cons.injEq] at hh
        exact absurd ⟨[], ds, by simp [hh.1]⟩ h3
    · rename_i _ hh
      simp only [List.cons.injEq] at hh
      rw [← hh.2]; exact this

theorem stripComments_prefix (a s : Str) (h : ¬ ∃ x y, a = x ++ '/' :: '*' :: y)
    (hs : s.head? ≠ some '*') : stripComments (a ++ s) = a ++ stripComments s := by
  induction a with
  | nil => rfl
  | cons c cs ih =>
    have ih' := ih (fun ⟨x, y, hh⟩ => h ⟨c :: x, y, by simp [hh]⟩)
    rw [List.cons_append]
    rw [stripComments]
    · rw [ih']; rfl
    · intro cs' hh e
      cases cs with
      | nil => simp at e; rw [e] at hs; simp at hs
      | cons d ds =>
        simp at e
        exact h ⟨[], ds, by simp [hh, e.1]⟩

theorem noComment (s : Str) (h : contains s c!"/*" = false) : ¬ ∃ x y, s = x ++ '/' :: '*' :: y := by
  rintro ⟨x, y, rfl⟩
  have key : contains (x ++ '/' :: '*' :: y) c!"/*" = true := by
    induction x with
    | nil => simp [contains]
    | cons c x ih =>
      simp only [List.cons_append, contains, Bool.or_eq_true]
      right
      apply ih
      simp only [List.cons_append, contains, Bool.or_eq_false_iff] at h
      exact h.2
  rw [key] at h
  cases h

/-- Multiset bookkeeping: everything added anywhere is in `params` exactly once. -/
theorem step_perm (p : Parser) (s : Stmt)
    (h : p.params.Perm (keys p.root ++ p.stack.flatMap (fun x => keys x.2))) :
    (p.step s).params.Perm (keys (p.step s).root ++ (p.step s).stack.flatMap (fun x => keys x.2)) := by
  have keys_append : ∀ a b : MDict Str, keys (a ++ b) = keys a ++ keys b := by
    intro a b
    induction a with
    | nil => simp [keys]
    | cons x a ih => simp [keys, ih]
  have add_perm : ∀ (p : Parser) (k : Str) (t : Tree Str) (extra : List Str),
      keysT k t = extra ++ [k] →
      (p.params).Perm (keys p.root ++ p.stack.flatMap (fun x => keys x.2) ++ extra) →
      (p.add k t).params.Perm (keys (p.add k t).root ++ (p.add k t).stack.flatMap (fun x => keys x.2)) := by
    intro p k t extra hk hp
    rcases p with ⟨r, st, ps⟩
    cases st with
    | nil =>
      simp only [Parser.add, keys_append, keys, hk, List.append_nil, List.flatMap_nil] at hp ⊢
      rw [← List.append_assoc]
      exact hp.append_right _
    | cons a st =>
      simp only [Parser.add, keys_append, keys, hk, List.append_nil, List.flatMap_cons] at hp ⊢
      refine (hp.append_right [k]).trans ?_
      simp only [List.append_assoc]
      refine List.Perm.append_left _ (List.Perm.append_left _ ?_)
      rw [← List.append_assoc, ← List.append_assoc]
      have := (List.perm_append_comm (l₁ := st.flatMap (fun x => keys x.2)) (l₂ := extra)).append_right [k]
      refine this.trans ?_
      simp only [List.append_assoc]
      exact List.Perm.append_left _ List.perm_append_comm
  unfold Parser.step
  split
  · simpa [Parser.stepIn, keys] using h
  · split
    · rcases p with ⟨r, st, ps⟩
      cases st with
      | nil => simpa [Parser.stepOut] using h
      | cons a st =>
        simp only [Parser.stepOut]
        refine add_perm _ _ _ (keys a.2) (by simp [keysT]) ?_
        refine h.trans ?_
        simp only [List.flatMap_cons, List.append_assoc]
        exact List.Perm.append_left _ List.perm_append_comm
    · exact add_perm _ _ _ [] (by simp [keysT]) (by simpa using h)

theorem foldl_perm (ss : List Stmt) (p : Parser)
    (h : p.params.Perm (keys p.root ++ p.stack.flatMap (fun x => keys x.2))) :
    (ss.foldl Parser.step p).params.Perm (keys (ss.foldl Parser.step p).root ++
      (ss.foldl Parser.step p).stack.flatMap (fun x => keys x.2)) := by
  induction ss generalizing p with
  | nil => exact h
  | cons s ss ih => exact ih _ (step_perm p s h)

end Verif.Pvl
