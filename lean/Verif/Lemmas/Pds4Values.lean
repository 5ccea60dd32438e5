/-
Lemmas for PDS4 tables: the values of a field.
-/
import Verif.Lemmas.Pds4Table
import Verif.Lemmas.Literal
import Verif.Lemmas.Str
import Verif.Props.Scaling

namespace Verif.Pds4Table
open Verif.Py Verif.Bits Verif.Datatypes Verif.Image Verif.Table Verif.Table.Spec Verif.ImageFile Verif.ImageFile.Spec
  Verif.Pds4Array.Spec Verif.Literal.Spec Verif.Pds4Table.Spec

/-! ### texts -/

theorem ascii_latin {b : Bytes} {s : Str} (h : Ascii b s) : latin b = s := by
  unfold Ascii at h
  unfold latin
  induction b generalizing s with
  | nil => cases s with
    | nil => rfl
    | cons => cases h
  | cons c b ih =>
    cases s with
    | nil => cases h
    | cons d s =>
      simp only [List.map_cons, List.cons.injEq] at h ⊢
      exact ⟨by rw [h.1]; exact Char.ofNat_toNat d, ih h.2⟩

theorem ascii_eq {b c : Bytes} {s : Str} (h : Ascii b s) (h' : Ascii c s) : b = c := by
  unfold Ascii at h h'
  exact List.map_injective_iff.2 (fun x y hxy => UInt8.toNat_inj.1 hxy) (h.trans h'.symm)

theorem dropWhile_blanks (i : Nat) (t : Bytes) (h : ∀ c, t.head? = some c → isBlank c = false) :
    (List.replicate i 32 ++ t).dropWhile isBlank = t := by
  induction i with
  | zero =>
    cases t with
    | nil => rfl
    | cons c t => simp [h c rfl]
  | succ i ih =>
    rw [List.replicate_succ, List.cons_append, List.dropWhile_cons_of_pos (by decide), ih]

theorem strip_blanks (i j : Nat) (t : Bytes) (hne : t ≠ []) (h1 : ∀ c, t.head? = some c → isBlank c = false)
    (h2 : ∀ c, t.getLast? = some c → isBlank c = false) :
    (((List.replicate i 32 ++ t ++ List.replicate j 32).dropWhile isBlank).reverse.dropWhile isBlank).reverse = t := by
  rw [List.append_assoc, dropWhile_blanks, List.reverse_append, List.reverse_replicate, dropWhile_blanks, List.reverse_reverse]
  · intro c hc
    rw [List.head?_reverse] at hc
    exact h2 c hc
  · intro c hc
    cases t with
    | nil => exact absurd rfl hne
    | cons x t => exact h1 c hc

set_option maxRecDepth 20000 in
theorem blank_space {c : UInt8} (h : isBlank c = true) : isSpace (Char.ofNat c.toNat) = true := by
  revert h
  have : ∀ n : Fin 256, isBlank (UInt8.ofNat n) = true → isSpace (Char.ofNat (UInt8.ofNat n).toNat) = true := by decide
  have h2 := this ⟨c.toNat, c.toNat_lt⟩
  simpa using h2

theorem toInt_ok {b : Bytes} {s : Str} {k : Nat} {n : Int} (hp : Padded b s) (h : SignedNumeral k s n) (h1 : 2 ≤ k) (h2 : k ≤ 36) :
    toInt k b = .ok n := by
  obtain ⟨i, j, t, rfl, ht⟩ := hp
  have hl := ascii_latin ht
  have hch : ∀ c ∈ t, isBlank c = false := by
    intro c hc
    by_contra hb
    have hb' : isBlank c = true := by simpa using hb
    have hm : Char.ofNat c.toNat ∈ s := by rw [← hl]; exact List.mem_map.2 ⟨c, hc, rfl⟩
    have := (Literal.signed_char h _ hm).2.2.2.2.2.2.2.2
    rw [blank_space hb'] at this
    cases this
  have hne : t ≠ [] := by
    rintro rfl
    have := (Literal.signed_all h).1
    rw [← hl] at this
    exact this rfl
  unfold toInt
  simp only
  rw [strip_blanks i j t hne (fun c hc => hch c (List.mem_of_mem_head? hc)) (fun c hc => hch c (List.mem_of_mem_getLast? hc)), hl]
  have hs : strip s = s := strip_self s
    (fun c hc => (Literal.signed_char h c (List.mem_of_mem_head? hc)).2.2.2.2.2.2.2.2)
    (fun c hc => (Literal.signed_char h c (List.mem_of_mem_getLast? hc)).2.2.2.2.2.2.2.2)
  rw [if_neg (fun c => c hs), Literal.pyInt_ok h h1 h2]

/-! ### truth values -/

theorem prefix_cut (old a b : Bytes) (h : 64 ∉ old) : old.isPrefixOf (a ++ 64 :: b) = old.isPrefixOf a := by
  induction old generalizing a with
  | nil => rfl
  | cons o old ih =>
    cases a with
    | nil =>
      simp only [List.nil_append, List.isPrefixOf]
      rw [show (o == (64 : UInt8)) = false from by simpa using (fun e : o = 64 => h (by simp [e]))]
      rfl
    | cons c a =>
      simp only [List.cons_append, List.isPrefixOf]
      rw [ih a (fun hm => h (by simp [hm]))]

theorem replace_cut (old new : Bytes) (h : 64 ∉ old) (h0 : old ≠ []) (b : Bytes) :
    ∀ (m : Nat) (a : Bytes) (n k j : Nat), a.length ≤ m → (a ++ 64 :: b).length ≤ n → a.length ≤ k → b.length ≤ j →
      replaceAll old new n (a ++ 64 :: b) = replaceAll old new k a ++ 64 :: replaceAll old new j b := by
  have hmono : ∀ (m : Nat) (s : Bytes) (n k : Nat), s.length ≤ m → s.length ≤ n → s.length ≤ k →
      replaceAll old new n s = replaceAll old new k s := by
    intro m
    induction m with
    | zero =>
      intro s n k hm _ _
      obtain rfl := List.length_eq_zero_iff.1 (Nat.le_zero.1 hm)
      simp only [replaceAll]
    | succ m ih =>
      intro s n k hm hn hk
      cases s with
      | nil => simp only [replaceAll]
      | cons c cs =>
        obtain ⟨n, rfl⟩ : ∃ x, n = x + 1 := ⟨n - 1, by simp only [List.length_cons] at hn; omega⟩
        obtain ⟨k, rfl⟩ : ∃ x, k = x + 1 := ⟨k - 1, by simp only [List.length_cons] at hk; omega⟩
        simp only [List.length_cons] at hm hn hk
        simp only [replaceAll]
        have hd : ((c :: cs).drop old.length).length ≤ cs.length := by
          have : 0 < old.length := List.length_pos_iff.2 h0
          simp only [List.length_drop, List.length_cons]
          omega
        rw [ih _ n k (by omega) (by omega) (by omega), ih cs n k (by omega) (by omega) (by omega)]
  intro m
  induction m with
  | zero =>
    intro a n k j hm hn hk hj
    obtain rfl := List.length_eq_zero_iff.1 (Nat.le_zero.1 hm)
    simp only [List.nil_append, List.length_cons] at hn ⊢
    obtain ⟨n, rfl⟩ : ∃ x, n = x + 1 := ⟨n - 1, by omega⟩
    have hp := prefix_cut old [] b h
    rw [List.nil_append] at hp
    have h2 : old.isPrefixOf ([] : Bytes) = false := by cases old with
      | nil => exact absurd rfl h0
      | cons => rfl
    simp only [replaceAll, hp, h2, Bool.false_eq_true, if_false, List.nil_append]
    rw [hmono _ b n j (le_refl _) (by omega) hj]
  | succ m ih =>
    intro a n k j hm hn hk hj
    cases a with
    | nil => exact ih [] n k j (by simp) hn hk hj
    | cons c cs =>
      obtain ⟨n, rfl⟩ : ∃ x, n = x + 1 := ⟨n - 1, by simp only [List.cons_append, List.length_cons] at hn; omega⟩
      obtain ⟨k, rfl⟩ : ∃ x, k = x + 1 := ⟨k - 1, by simp only [List.length_cons] at hk; omega⟩
      simp only [List.length_cons, List.cons_append, List.length_append] at hm hn hk
      rw [List.cons_append]
      simp only [replaceAll]
      rw [← List.cons_append, prefix_cut _ _ _ h]
      by_cases hp : old.isPrefixOf (c :: cs) = true
      · rw [if_pos hp, if_pos hp]
        have hle := (List.isPrefixOf_iff_prefix.1 hp).length_le
        have hpos : 0 < old.length := List.length_pos_iff.2 h0
        simp only [List.length_cons] at hle
        rw [List.drop_append_of_le_length (by simpa using hle),
          ih _ n k j (by simp only [List.length_drop, List.length_cons]; omega)
            (by simp only [List.length_append, List.length_drop, List.length_cons]; omega)
            (by simp only [List.length_drop, List.length_cons]; omega) hj, List.append_assoc]
      · rw [if_neg hp, if_neg hp, ih cs n k j (by omega) (by simp only [List.length_append, List.length_cons]; omega) (by omega) hj]
        rfl

theorem replace_join (old new : Bytes) (h : 64 ∉ old) (h0 : old ≠ []) (cells : List Bytes) (n : Nat)
    (hn : (joinBytes [64] cells).length ≤ n) :
    replaceAll old new n (joinBytes [64] cells) = joinBytes [64] (cells.map (fun c => replaceAll old new c.length c)) := by
  induction cells generalizing n with
  | nil => simp only [joinBytes, List.map_nil, replaceAll]
  | cons c cells ih =>
    cases cells with
    | nil =>
      simp only [joinBytes, List.map_cons, List.map_nil] at hn ⊢
      have := replace_cut old new h h0 [] c.length c (c.length + 1) n 0 (le_refl _) (by simp) hn (by simp)
      have h2 := replace_cut old new h h0 [] c.length c (c.length + 1) c.length 0 (le_refl _) (by simp) (le_refl _) (by simp)
      rw [this] at h2
      exact List.append_cancel_right h2
    | cons d cells =>
      have hj : joinBytes [64] (c :: d :: cells) = c ++ 64 :: joinBytes [64] (d :: cells) := by
        simp [joinBytes]
      rw [hj] at hn ⊢
      rw [replace_cut old new h h0 _ c.length c n c.length (joinBytes [64] (d :: cells)).length (le_refl _) hn (le_refl _) (le_refl _),
        ih _ (le_refl _)]
      simp [joinBytes]

theorem splitByte_ne (sep : UInt8) (s : Bytes) : splitByte sep s ≠ [] := by
  cases s with
  | nil => simp [splitByte]
  | cons c s =>
    rw [splitByte]
    split
    · simp
    · split <;> simp

theorem splitByte_cut (sep : UInt8) (a b : Bytes) (h : sep ∉ a) : splitByte sep (a ++ sep :: b) = a :: splitByte sep b := by
  induction a with
  | nil => simp [splitByte]
  | cons c a ih =>
    have hc : c ≠ sep := fun e => h (by simp [e])
    rw [List.cons_append, splitByte, if_neg hc, ih (fun hm => h (by simp [hm]))]

theorem splitByte_none (sep : UInt8) (a : Bytes) (h : sep ∉ a) : splitByte sep a = [a] := by
  induction a with
  | nil => rfl
  | cons c a ih =>
    have hc : c ≠ sep := fun e => h (by simp [e])
    rw [splitByte, if_neg hc, ih (fun hm => h (by simp [hm]))]

theorem split_join (sep : UInt8) (cells : List Bytes) (hne : cells ≠ []) (h : ∀ c ∈ cells, sep ∉ c) :
    splitByte sep (joinBytes [sep] cells) = cells := by
  induction cells with
  | nil => exact absurd rfl hne
  | cons c cells ih =>
    cases cells with
    | nil => exact splitByte_none sep c (h c (by simp))
    | cons d cells =>
      have hj : joinBytes [sep] (c :: d :: cells) = c ++ sep :: joinBytes [sep] (d :: cells) := by
        simp [joinBytes]
      rw [hj, splitByte_cut sep _ _ (h c (by simp)), ih (by simp) (fun x hx => h x (by simp [hx]))]

theorem replace_blanks (old new : Bytes) (o : UInt8) (os : Bytes) (ho : old = o :: os) (h32 : o ≠ 32) (j n : Nat) (hn : j ≤ n) :
    replaceAll old new n (List.replicate j 32) = List.replicate j 32 := by
  induction j generalizing n with
  | zero => simp only [List.replicate_zero, replaceAll]
  | succ j ih =>
    obtain ⟨n, rfl⟩ : ∃ x, n = x + 1 := ⟨n - 1, by omega⟩
    rw [List.replicate_succ]
    simp only [replaceAll]
    have : old.isPrefixOf (32 :: List.replicate j 32) = false := by
      rw [ho]; simp [List.isPrefixOf, h32]
    rw [this, ih n (by omega)]
    rfl

theorem replace_skip (old new : Bytes) (o : UInt8) (os : Bytes) (ho : old = o :: os) (h32 : o ≠ 32) (i : Nat) (t : Bytes) (n : Nat)
    (hn : i + t.length ≤ n) :
    replaceAll old new n (List.replicate i 32 ++ t) = List.replicate i 32 ++ replaceAll old new (n - i) t := by
  induction i generalizing n with
  | zero => simp
  | succ i ih =>
    obtain ⟨n, rfl⟩ : ∃ x, n = x + 1 := ⟨n - 1, by omega⟩
    rw [List.replicate_succ, List.cons_append]
    simp only [replaceAll]
    have : old.isPrefixOf (32 :: (List.replicate i 32 ++ t)) = false := by
      rw [ho]; simp [List.isPrefixOf, h32]
    rw [this, ih n (by omega)]
    simp

/-- the text of a truth value with its word replaced -/
theorem replace_bool (i j : Nat) (v : Bool) (a : Bytes)
    (ha : a = List.replicate i 32 ++ (if v then sTrue else sFalse) ++ List.replicate j 32) :
    replaceAll sFalse [48] (replaceAll sTrue [49] a.length a).length (replaceAll sTrue [49] a.length a) =
      List.replicate i 32 ++ (if v then [49] else [48]) ++ List.replicate j 32 := by
  have step : ∀ (k : Nat), replaceAll sTrue [49] (k + (j + 4)) (sTrue ++ List.replicate j 32) = [49] ++ List.replicate j 32 := by
    intro k
    rw [show k + (j + 4) = (k + j + 3) + 1 by omega]
    simp only [sTrue, List.cons_append, List.nil_append, replaceAll, List.isPrefixOf, beq_self_eq_true, Bool.true_and, if_true,
      List.length_cons, List.length_nil, List.drop_succ_cons, List.drop_zero]
    rw [replace_blanks _ _ 116 [114, 117, 101] rfl (by decide) _ _ (by omega)]
  cases v with
  | true =>
    simp only [if_true] at ha ⊢
    have e1 : replaceAll sTrue [49] a.length a = List.replicate i 32 ++ ([49] ++ List.replicate j 32) := by
      rw [ha, List.append_assoc, replace_skip sTrue _ 116 [114, 117, 101] rfl (by decide) _ _ _ (by simp)]
      congr 1
      have := step 0
      rw [← this]
      congr 1
      simp [sTrue]
    rw [e1, replace_skip sFalse _ 102 [97, 108, 115, 101] rfl (by decide) _ _ _ (by simp)]
    rw [List.append_assoc]
    congr 1
    simp only [List.length_append, List.length_replicate, List.length_cons, List.length_nil, List.cons_append, List.nil_append]
    rw [show i + (j + 1) - i = j + 1 by omega]
    simp only [replaceAll]
    rw [show sFalse.isPrefixOf (49 :: List.replicate j 32) = false from rfl,
      replace_blanks sFalse _ 102 [97, 108, 115, 101] rfl (by decide) _ _ (le_refl _)]
    rfl
  | false =>
    simp only [Bool.false_eq_true, if_false] at ha ⊢
    have e1 : replaceAll sTrue [49] a.length a = a := by
      rw [ha, List.append_assoc, replace_skip sTrue _ 116 [114, 117, 101] rfl (by decide) _ _ _ (by simp)]
      congr 1
      simp only [List.length_append, List.length_replicate, sFalse, List.length_cons, List.length_nil]
      rw [show i + (0 + 1 + 1 + 1 + 1 + 1 + j) - i = j + 1 + 1 + 1 + 1 + 1 by omega]
      simp only [sTrue, List.cons_append, List.nil_append, replaceAll]
      simp only [List.isPrefixOf, show ((116 : UInt8) == 102) = false from rfl, show ((116 : UInt8) == 97) = false from rfl,
        show ((116 : UInt8) == 108) = false from rfl, show ((116 : UInt8) == 115) = false from rfl,
        show ((116 : UInt8) == 101) = false from rfl, Bool.false_and, Bool.false_eq_true, if_false]
      rw [show ([116, 114, 117, 101] : Bytes) = sTrue from rfl, replace_blanks sTrue _ 116 [114, 117, 101] rfl (by decide) _ _ (le_refl _)]
    rw [e1, ha, List.append_assoc, replace_skip sFalse _ 102 [97, 108, 115, 101] rfl (by decide) _ _ _ (by simp), List.append_assoc]
    congr 1
    simp only [List.length_append, List.length_replicate, sFalse, List.length_cons, List.length_nil]
    rw [show i + (0 + 1 + 1 + 1 + 1 + 1 + j) - i = (j + 1 + 1 + 1 + 1) + 1 by omega]
    simp only [List.cons_append, List.nil_append, replaceAll, List.isPrefixOf, beq_self_eq_true, Bool.true_and, if_true,
      List.length_cons, List.length_nil, List.drop_succ_cons, List.drop_zero]
    rw [replace_blanks _ _ 102 [97, 108, 115, 101] rfl (by decide) _ _ (by omega)]

/-! ### conversions -/

theorem mapM_rel {α β : Type} (f : α → Except PyErr β) (P : α → β → Prop) (l : List α) (h : ∀ a ∈ l, ∃ b, f a = .ok b ∧ P a b) :
    ∃ bs, l.mapM f = .ok bs ∧ List.Forall₂ P l bs := by
  induction l with
  | nil => exact ⟨[], rfl, .nil⟩
  | cons a l ih =>
    obtain ⟨b, hb, hP⟩ := h a (by simp)
    obtain ⟨bs, hbs, hF⟩ := ih (fun a ha => h a (by simp [ha]))
    exact ⟨b :: bs, by rw [List.mapM_cons, hb, hbs]; rfl, .cons hP hF⟩

theorem stripNuls_text (b : Bytes) (h : b.getLast? ≠ some 0) (k : Nat) : stripNuls (b ++ List.replicate k 0) = b := stripNuls_chars b k h

theorem stripNuls_self (b : Bytes) (h : b.getLast? ≠ some 0) : stripNuls b = b := by
  have := stripNuls_chars b 0 h
  simpa using this

/-- what `Means` says for each kind of conversion -/
def Fit (E : Env) : TypeKind → Bytes → Value → Prop
  | .binary d, b, v => 0 < d.size ∧ Stored d b v ∧ b.length = d.size
  | .int d least, b, v => least = true ∧ intType d ∈ NumPy.IntType.all ∧
      ∃ s n, Padded b s ∧ SignedNumeral 10 s n ∧ Pds4Scale.Good (intType d) n ∧ v = .int n
  | .base k, b, v => ∃ (m : Nat) (s : Str) (n : Int), (m = 2 ∨ m = 8 ∨ m = 16) ∧ k = m ∧ Padded b s ∧ SignedNumeral m s n ∧ v = .int n
  | .real w, b, v => w = .f64 ∧ ∃ x, E.float .f64 b = some x ∧ ImageFile.Spec.Is (.real x) v
  | .bool, b, v => ∃ u : Bool, Padded b (if u then c!"true" else c!"false") ∧ v = .bool u
  | .bits, b, v => v = .bytes (stripNuls b)
  | .chars, b, v => ∃ s, E.utf8 (stripNuls b) = some s ∧ v = .text s

theorem stored_length {d : Dtype} {b : Bytes} {v : Value} (h : Stored d b v) : b.length = d.size := by
  cases h <;> simp_all

theorem kind_number {t : Str} {d : Dtype} (h : Pds4Type t d) :
    ∃ d', typeKind true t = .binary d' ∧ 0 < d'.size ∧
      (d' = d ∨ ∃ o o' k, (k = .int ∨ k = .uint) ∧ d' = ⟨some o, k, 1⟩ ∧ d = ⟨some o', k, 1⟩) := by
  cases h with
  | signed o n hn =>
    simp only [List.mem_cons, List.not_mem_nil, or_false] at hn
    rcases hn with rfl | rfl | rfl <;> cases o <;> exact ⟨_, rfl, by decide, .inl rfl⟩
  | unsigned o n hn =>
    simp only [List.mem_cons, List.not_mem_nil, or_false] at hn
    rcases hn with rfl | rfl | rfl <;> cases o <;> exact ⟨_, rfl, by decide, .inl rfl⟩
  | single o => cases o <;> exact ⟨_, rfl, by decide, .inl rfl⟩
  | double o => cases o <;> exact ⟨_, rfl, by decide, .inl rfl⟩
  | signedByte o => exact ⟨_, rfl, by decide, .inr ⟨.little, o, .int, .inl rfl, rfl, rfl⟩⟩
  | unsignedByte o => exact ⟨_, rfl, by decide, .inr ⟨.little, o, .uint, .inr rfl, rfl, rfl⟩⟩

theorem kind_text {t : Str} (h : t ∈ textTypes) (bin : Bool) : typeKind bin t = .chars := by
  simp only [textTypes, List.mem_cons, List.not_mem_nil, or_false] at h
  rcases h with rfl | rfl | rfl | rfl | rfl | rfl | rfl | rfl | rfl | rfl | rfl | rfl | rfl | rfl | rfl | rfl | rfl | rfl | rfl <;> rfl

theorem means_fit {E : Env} {bin : Bool} {t : Str} {b : Bytes} {v : Value} (h : Means E bin t b v) : Fit E (typeKind bin t) b v := by
  cases h with
  | number hb ht hs =>
    subst hb
    obtain ⟨d', hk, h0, hd⟩ := kind_number ht
    rw [hk]
    have hs' : Stored d' b v := by
      rcases hd with rfl | ⟨o, o', k, hkk, rfl, rfl⟩
      · exact hs
      · exact Pds4Array.stored_byte hkk hs
    exact ⟨h0, hs', stored_length hs'⟩
  | integer hp hn h1 h2 =>
    refine ⟨rfl, by decide, _, _, hp, hn, ?_, rfl⟩
    unfold Pds4Scale.Good
    rw [if_pos (by decide), abs_le]
    have : NumPy.hi (intType ⟨none, .int, 8⟩) = 2 ^ 63 - 1 := by decide
    rw [this]
    omega
  | nonNegative hp hn h1 h2 =>
    refine ⟨rfl, by decide, _, _, hp, hn, ?_, rfl⟩
    unfold Pds4Scale.Good
    rw [if_neg (by decide)]
    have : NumPy.hi (intType ⟨none, .uint, 8⟩) = 2 ^ 64 - 1 := by decide
    rw [this]
    omega
  | inBase hk hp hn =>
    rename_i k s n
    rcases hk with rfl | rfl | rfl
    · exact ⟨2, s, n, .inl rfl, rfl, hp, .inl ⟨n, hn, rfl⟩, rfl⟩
    · exact ⟨8, s, n, .inr (.inl rfl), rfl, hp, .inl ⟨n, hn, rfl⟩, rfl⟩
    · exact ⟨16, s, n, .inr (.inr rfl), rfl, hp, .inl ⟨n, hn, rfl⟩, rfl⟩
  | real hx => exact ⟨rfl, _, hx, .real⟩
  | notFinite hx => exact ⟨rfl, _, hx, .notFinite⟩
  | boolean hp => exact ⟨_, hp, rfl⟩
  | text ht hl hu =>
    rw [kind_text ht]
    exact ⟨_, by rw [stripNuls_text _ hl]; exact hu, rfl⟩
  | bits ht hl =>
    have hk : typeKind bin t = .bits := by rcases ht with rfl | rfl <;> rfl
    rw [hk]
    exact congrArg _ (stripNuls_self _ hl).symm

theorem fromBuffer_eq (d : Dtype) (h0 : 0 < d.size) (cells : List Bytes) (h : ∀ b ∈ cells, b.length = d.size) :
    fromBuffer d cells.flatten = .ok (cells.map (fun b => elemOf (oneVal d b))) := by
  have hl : cells.flatten.length = cells.length * d.size := by
    clear h0
    induction cells with
    | nil => simp
    | cons b cells ih =>
      rw [List.flatten_cons, List.length_append, ih (fun b hb => h b (by simp [hb])), h b (by simp), List.length_cons]
      ring
  unfold fromBuffer
  rw [hl, Nat.mul_mod_left, if_neg (by simp), Nat.mul_div_cancel _ h0, elems_eq]
  congr 2
  clear hl
  induction cells with
  | nil => rfl
  | cons b cells ih =>
    rw [List.length_cons, records, List.flatten_cons, List.take_left' (h b (by simp)), List.drop_left' (h b (by simp)),
      ih (fun b hb => h b (by simp [hb]))]

theorem wrap_least (ns : List Int) (t : NumPy.DType) (hne : ns ≠ [])
    (h : ∀ u, t = some u → u ∈ NumPy.IntType.all ∧ ∀ n ∈ ns, Pds4Scale.Good u n) : toLeast t ns = .ok ns := by
  have hmin : ∃ f, Pds4Scale.minIntType none ns = .ok f ∧ Pds4Scale.minIntType t ns = .ok f := by
    cases ns with
    | nil => exact absurd rfl hne
    | cons x xs =>
      refine ⟨_, rfl, ?_⟩
      cases t with
      | none => rfl
      | some u =>
        obtain ⟨hu, hg⟩ := h u rfl
        rw [Pds4Scale.minIntType_cons, Pds4Scale.typeFor_good_eq u hu _ _ (hg _ (Pds4Scale.minOf_mem x xs)) (hg _ (Pds4Scale.maxOf_mem x xs))]
  obtain ⟨f, hf, ht⟩ := hmin
  unfold toLeast
  rw [ht]
  cases f with
  | none => rfl
  | some u =>
    have hh := Pds4Scale.C15_type_holds ns _ hf
    have hu : u ∈ NumPy.IntType.all := by
      cases ns with
      | nil => exact absurd rfl hne
      | cons x xs =>
        rw [Pds4Scale.minIntType_cons] at hf
        simp only [Except.ok.injEq] at hf
        exact Pds4Scale.typeFor_known _ _ _ _ hf
    simp only
    congr 1
    conv_rhs => rw [← List.map_id ns]
    refine List.map_congr_left (fun n hn => ?_)
    have := hh n hn
    exact NumPy.wrap_id u (NumPy.bits_pos hu) n this.1 this.2

theorem padded_bool {b : Bytes} {u : Bool} (h : Padded b (if u then c!"true" else c!"false")) :
    ∃ i j, b = List.replicate i 32 ++ (if u then sTrue else sFalse) ++ List.replicate j 32 := by
  obtain ⟨i, j, t, rfl, ht⟩ := h
  refine ⟨i, j, ?_⟩
  congr 2
  refine ascii_eq ht ?_
  cases u <;> rfl

theorem toBools_ok (cells : List Bytes) (hne : cells ≠ [])
    (h : ∀ b ∈ cells, ∃ u : Bool, Padded b (if u then c!"true" else c!"false")) :
    ∃ out, toBools cells = .ok out ∧
      List.Forall₂ (fun b c => ∀ u : Bool, Padded b (if u then c!"true" else c!"false") → c = Cell.bool u) cells out := by
  unfold toBools
  simp only
  rw [replace_join sTrue [49] (by decide) (by decide) cells _ (le_refl _), replace_join sFalse [48] (by decide) (by decide) _ _ (le_refl _)]
  have hR : ∀ b ∈ cells, ∀ u : Bool, Padded b (if u then c!"true" else c!"false") → ∃ i j,
      replaceAll sFalse [48] (replaceAll sTrue [49] b.length b).length (replaceAll sTrue [49] b.length b) =
        List.replicate i 32 ++ (if u then [49] else [48]) ++ List.replicate j 32 := by
    intro b _ u hu
    obtain ⟨i, j, hb⟩ := padded_bool hu
    exact ⟨i, j, replace_bool i j u b hb⟩
  rw [List.map_map, split_join 64 _ (by simpa using hne)]
  · rw [List.mapM_map]
    refine mapM_rel _ _ cells ?_
    intro b hb
    obtain ⟨u, hu⟩ := h b hb
    have key : ∀ u' : Bool, Padded b (if u' then c!"true" else c!"false") → toBool (((fun c => replaceAll sFalse [48] c.length c) ∘
        (fun c => replaceAll sTrue [49] c.length c)) b) = .ok (.bool u') := by
      intro u' hu'
      obtain ⟨i, j, hr⟩ := hR b hb u' hu'
      simp only [Function.comp]
      rw [hr]
      unfold toBool
      rw [stripNuls_self]
      · have hp : Padded (List.replicate i 32 ++ (if u' then [49] else [48]) ++ List.replicate j 32) (if u' then c!"1" else c!"0") :=
          ⟨i, j, _, rfl, by cases u' <;> rfl⟩
        have hn : SignedNumeral 10 (if u' then c!"1" else c!"0") (if u' then 1 else 0 : Int) := by
          refine .inl ?_
          cases u'
          · exact ⟨0, ⟨[0], .cons (.inl ⟨by decide, rfl⟩) .nil, by simp, by simp, rfl⟩, rfl⟩
          · exact ⟨1, ⟨[1], .cons (.inl ⟨by decide, rfl⟩) .nil, by simp, by simp, rfl⟩, rfl⟩
        have := toInt_ok hp hn (by decide) (by decide)
        rw [show ((10 : Nat) : Int) = 10 from rfl] at this
        rw [this]
        cases u' <;> rfl
      · intro hc
        cases j with
        | zero =>
          rw [List.replicate_zero, List.append_nil] at hc
          cases u' <;> simp at hc
        | succ j =>
          rw [List.replicate_succ', ← List.append_assoc, List.getLast?_append] at hc
          simp at hc
    refine ⟨_, key u hu, ?_⟩
    intro u' hu'
    have e := key u' hu'
    rw [key u hu] at e
    simpa using e
  · intro c hc
    obtain ⟨b, hb, rfl⟩ := List.mem_map.1 hc
    obtain ⟨u, hu⟩ := h b hb
    obtain ⟨i, j, hr⟩ := hR b hb u hu
    simp only [Function.comp]
    rw [hr]
    cases u <;> simp

theorem numeral_unique {k : Nat} {s : Str} {n m : Int} (h1 : 2 ≤ k) (h2 : k ≤ 36) (h : SignedNumeral k s n) (h' : SignedNumeral k s m) : n = m := by
  have e := Literal.pyInt_ok h h1 h2
  rw [Literal.pyInt_ok h' h1 h2] at e
  simpa using e.symm

/-- The values of a field are converted to what they stand for. -/
theorem convert_ok (E : Env) (bin : Bool) (t : Str) (cells : List Bytes) (hne : cells ≠ []) (h : ∀ b ∈ cells, ∃ v, Means E bin t b v) :
    ∃ out, convert E bin t cells = .ok out ∧ List.Forall₂ (fun b c => ∀ v, Means E bin t b v → Spec.Is c v) cells out := by
  have hfit : ∀ b v, Means E bin t b v → Fit E (typeKind bin t) b v := fun b v hm => means_fit hm
  have hex : ∀ b ∈ cells, ∃ v, Fit E (typeKind bin t) b v := fun b hb => by
    obtain ⟨v, hv⟩ := h b hb
    exact ⟨v, hfit b v hv⟩
  suffices hs : ∃ out, convert E bin t cells = .ok out ∧
      List.Forall₂ (fun b c => ∀ v, Fit E (typeKind bin t) b v → Spec.Is c v) cells out by
    obtain ⟨out, ho, hF⟩ := hs
    exact ⟨out, ho, hF.imp (fun b c hc v hv => hc v (hfit b v hv))⟩
  clear hfit h
  obtain ⟨b0, hb0⟩ := List.exists_mem_of_ne_nil cells hne
  obtain ⟨v0, hv0⟩ := hex b0 hb0
  have rel_map : ∀ {α : Type} (g : Bytes → Cell) (P : Bytes → Cell → Prop), (∀ b ∈ cells, P b (g b)) → List.Forall₂ P cells (cells.map g) := by
    intro _ g P hP
    rw [List.forall₂_map_right_iff]
    exact List.forall₂_same.2 hP
  unfold convert
  cases hk : typeKind bin t with
  | binary d =>
    rw [hk] at hex hv0
    simp only
    rw [fromBuffer_eq d hv0.1 cells (fun b hb => by obtain ⟨v, hv⟩ := hex b hb; exact hv.2.2)]
    refine ⟨_, rfl, ?_⟩
    beta_reduce
    rw [List.map_map]
    refine rel_map (α := Nat) _ _ (fun b _ v hv => ?_)
    exact .elem (is_elemOf hv.2.1)
  | int d least =>
    rw [hk] at hex hv0
    obtain ⟨rfl, hall, -⟩ := hv0
    simp only [toInts]
    obtain ⟨ns, hns, hF⟩ := mapM_rel (toInt 10) (fun b n => (∀ v, Fit E (.int d true) b v → v = .int n) ∧ Pds4Scale.Good (intType d) n) cells (by
      intro b hb
      obtain ⟨v, -, -, s, n, hp, hn, hg, rfl⟩ := hex b hb
      refine ⟨n, toInt_ok hp hn (by decide) (by decide), ?_, hg⟩
      rintro v ⟨-, -, s', n', hp', hn', hg', rfl⟩
      have e1 := toInt_ok hp hn (by decide) (by decide)
      rw [toInt_ok hp' hn' (by decide) (by decide)] at e1
      simpa using e1)
    have hgood : ∀ n ∈ ns, Pds4Scale.Good (intType d) n := by
      intro n hn
      obtain ⟨b, -, hb⟩ := (List.forall₂_iff_get.1 hF |> fun h => by
        obtain ⟨i, hi, rfl⟩ := List.getElem_of_mem hn
        exact ⟨cells[i]'(by rw [h.1]; exact hi), List.getElem_mem _, h.2 i (by rw [h.1]; exact hi) hi⟩ :
        ∃ b, b ∈ cells ∧ (∀ v, Fit E (.int d true) b v → v = .int n) ∧ Pds4Scale.Good (intType d) n)
      exact hb.2
    have hnn : ns ≠ [] := by
      rintro rfl
      cases hF
      exact hne rfl
    rw [hns]
    simp only
    rw [Scaling.mapM_ok (intoType (intType d)) id ns (by
      intro n hn
      have := Pds4Scale.Good.holds hall (hgood n hn)
      simp only [intoType, if_pos this, id]), List.map_id]
    simp only [if_true]
    rw [wrap_least ns (some (intType d)) hnn (by rintro u hu; cases hu; exact ⟨hall, hgood⟩)]
    refine ⟨_, rfl, ?_⟩
    rw [List.forall₂_map_right_iff]
    exact hF.imp (fun b n hb v hv => by rw [hb.1 v hv]; exact .elem .int)
  | base k =>
    rw [hk] at hex hv0
    simp only
    obtain ⟨ns, hns, hF⟩ := mapM_rel (toInt k) (fun b n => ∀ v, Fit E (.base k) b v → v = .int n) cells (by
      intro b hb
      obtain ⟨v, m, s, n, hm, rfl, hp, hn, rfl⟩ := hex b hb
      have h2 : 2 ≤ m ∧ m ≤ 36 := by omega
      refine ⟨n, toInt_ok hp hn h2.1 h2.2, ?_⟩
      rintro v ⟨m', s', n', hm', he, hp', hn', rfl⟩
      have : m' = m := by exact_mod_cast he.symm
      subst this
      have e1 := toInt_ok hp hn h2.1 h2.2
      rw [toInt_ok hp' hn' h2.1 h2.2] at e1
      simpa using e1)
    have hnn : ns ≠ [] := by
      rintro rfl
      cases hF
      exact hne rfl
    rw [hns]
    simp only
    rw [wrap_least ns none hnn (by rintro u hu; cases hu)]
    refine ⟨_, rfl, ?_⟩
    rw [List.forall₂_map_right_iff]
    exact hF.imp (fun b n hb v hv => by rw [hb v hv]; exact .elem .int)
  | real w =>
    rw [hk] at hex hv0
    obtain ⟨rfl, -⟩ := hv0
    refine mapM_rel _ _ cells (fun b hb => ?_)
    obtain ⟨v, -, x, hx, -⟩ := hex b hb
    refine ⟨.elem (.real x), by simp only [toReal, hx], ?_⟩
    rintro v ⟨-, x', hx', hi⟩
    rw [hx] at hx'
    cases hx'
    exact .elem hi
  | bool =>
    rw [hk] at hex
    obtain ⟨out, ho, hF⟩ := toBools_ok cells hne (fun b hb => by obtain ⟨v, u, hu, -⟩ := hex b hb; exact ⟨u, hu⟩)
    refine ⟨out, ho, hF.imp (fun b c hc v hv => ?_)⟩
    obtain ⟨u, hu, rfl⟩ := hv
    rw [hc u hu]
    exact .bool
  | bits =>
    refine ⟨_, rfl, ?_⟩
    refine rel_map (α := Nat) _ _ (fun b _ v hv => ?_)
    have hv' : v = .bytes (stripNuls b) := hv
    rw [hv']
    exact .elem .bytes
  | chars =>
    rw [hk] at hex
    refine mapM_rel _ _ cells (fun b hb => ?_)
    obtain ⟨v, s, hs, -⟩ := hex b hb
    refine ⟨.text s, by simp only [decodeText, hs], ?_⟩
    rintro v ⟨s', hs', rfl⟩
    rw [hs] at hs'
    cases hs'
    exact .text

end Verif.Pds4Table
