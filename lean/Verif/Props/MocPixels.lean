/-
C60: what the pixels of a transform-compressed MOC image are.
-/
import Verif.Lemmas.MocDctFloat

namespace Verif.Moc
open Verif Verif.Py Verif.NumPy Verif.Moc.Spec Verif.Float

theorem clamp_near (a b e : ℝ) (h : |a - b| ≤ e) : |max 0 (min 255 a) - max 0 (min 255 b)| ≤ e := by
  refine le_trans (abs_max_sub_max_le_max _ _ _ _) ?_
  refine max_le (by simpa using (abs_nonneg _).trans h) ?_
  refine le_trans (abs_min_sub_min_le_max _ _ _ _) ?_
  exact max_le (by simpa using (abs_nonneg _).trans h) h

/-- rounding, cutting off and limiting the value of a pixel -/
theorem pixel_value (R : Rounding double) (d : ℚ) (D : ℝ) (h : Near (2 ^ 43) (1 / 20) d D) :
    |(((max 0 (min 255 (truncate (R.fl (R.fl (d / 127) + 1 / 2))))).toNat : Nat) : ℝ) - max 0 (min 255 (D / 127))| ≤ 1 / 2 + 1 / 1000 := by
  have hfine := fine_pow R 37 (by decide)
  have ha := near_abs h
  obtain ⟨d1, d2⟩ := abs_le.1 ha
  obtain ⟨n1, n2⟩ := abs_le.1 h.2
  have e1 := hfine (d / 127) (by
    push_cast
    rw [abs_div, abs_of_pos (by norm_num : (0 : ℝ) < 127), div_le_iff₀ (by norm_num)]
    exact ha.trans (by norm_num))
  push_cast at e1
  obtain ⟨f1, f2⟩ := abs_le.1 e1
  have e2 := hfine (R.fl (d / 127) + 1 / 2) (by
    push_cast
    rw [abs_le]
    norm_num at d1 d2 f1 f2 ⊢
    constructor <;> linarith)
  push_cast at e2
  obtain ⟨f3, f4⟩ := abs_le.1 e2
  generalize R.fl (R.fl (d / 127) + 1 / 2) = v at f3 f4 ⊢
  generalize ((R.fl (d / 127) : ℚ) : ℝ) = w at f1 f2 f3 f4
  have v1 : D / 127 + 1 / 2 - 1 / 1000 ≤ (v : ℝ) := by norm_num at f1 f3 n1 ⊢; linarith
  have v2 : (v : ℝ) ≤ D / 127 + 1 / 2 + 1 / 1000 := by norm_num at f2 f4 n2 ⊢; linarith
  have hcast : (((max 0 (min 255 (truncate v))).toNat : Nat) : ℝ) = max 0 (min 255 ((truncate v : Int) : ℝ)) := by
    have : (((max 0 (min 255 (truncate v))).toNat : Nat) : Int) = max 0 (min 255 (truncate v)) := Int.toNat_of_nonneg (le_max_left _ _)
    have h2 : (((max 0 (min 255 (truncate v))).toNat : Nat) : ℝ) = (((max 0 (min 255 (truncate v))) : Int) : ℝ) := by
      rw [← this]
      push_cast
      rfl
    rw [h2]
    push_cast
    rfl
  rw [hcast, truncate]
  split
  · have l1 : ((⌊v⌋ : Int) : ℝ) ≤ (v : ℝ) := by exact_mod_cast Int.floor_le v
    have l2 : (v : ℝ) < ((⌊v⌋ : Int) : ℝ) + 1 := by exact_mod_cast Int.lt_floor_add_one v
    refine clamp_near _ _ _ ?_
    rw [abs_le]
    constructor <;> linarith
  · rename_i hneg
    have hv : (v : ℝ) < 0 := by exact_mod_cast not_le.1 hneg
    have hc : ((⌈v⌉ : Int) : ℝ) ≤ 0 := by exact_mod_cast Int.ceil_le.2 (by push_cast; exact (not_le.1 hneg).le : v ≤ ((0 : Int) : ℚ))
    rw [max_eq_left (le_trans (min_le_right _ _) hc), max_eq_left (le_trans (min_le_right _ _) (by linarith))]
    norm_num

/-- the transform of any 256 numbers of 32 bits has 256 pixels from 0 to 255 -/
theorem inv_length (R : Rounding double) (l : List Int) : (invFdct R l).length = 256 := by simp [invFdct]

theorem inv_lt (R : Rounding double) (l : List Int) : ∀ v ∈ invFdct R l, v < 256 := by
  intro v hv
  obtain ⟨i, _, rfl⟩ := List.mem_map.1 hv
  omega

/-- what a pixel is, by the coefficients -/
theorem inv_pixel (R : Rounding double) (x : List Int) (h0 : 0 ≤ x.getD 0 0 ∧ x.getD 0 0 < 65536)
    (hx : ∀ i, |x.getD i 0| ≤ 2 ^ 31 - 2 ^ 15) (i j : Nat) (hi : i < 16) (hj : j < 16) :
    |(((invFdct R x).getD (i * 16 + j) 0 : Nat) : ℝ) - max 0 (min 255 (inverseDct2 (fun k => (x.getD k 0 : ℝ)) i j / 127))| ≤ 1 / 2 + 1 / 1000 := by
  have hd : dctData x = fun k => ((x.getD k 0 : Int) : ℚ) := by
    funext k
    unfold dctData
    split
    · rename_i hk
      subst hk
      have hw : wrap uint16 (x.getD 0 0) = x.getD 0 0 := by
        have h1 := h0.1
        have h2 := h0.2
        have e : wrap uint16 (x.getD 0 0) = (x.getD 0 0 - 0) % 65536 + 0 := rfl
        rw [e]
        omega
      rw [hw]
    · rfl
  unfold invFdct
  rw [List.getD_eq_getElem?_getD, List.getElem?_map, List.getElem?_range (by omega)]
  simp only [Option.map_some, Option.getD_some]
  rw [show (i * 16 + j) / 16 = i by omega, show (i * 16 + j) % 16 = j by omega, hd]
  exact pixel_value R _ _ (near_square R (fun k => x.getD k 0) (fun k _ => hx k) i j hi hj)

/-- the mean is below 2^16 -/
theorem dc_range (l : Level) (h1 : l.minDc < 65536) (h2 : l.maxDc < 65536) (dc : Nat) (hd : dc < 256) : 0 ≤ l.dc dc ∧ l.dc dc < 65536 := by
  have e : 255 * (l.minDc : Int) + dc * ((l.maxDc : Int) - l.minDc) = (255 - dc) * l.minDc + dc * l.maxDc := by ring
  have k1 : (0 : Int) ≤ 255 - dc := by omega
  have a1 : (255 - dc : Int) * l.minDc ≤ (255 - dc) * 65535 := mul_le_mul_of_nonneg_left (by omega) k1
  have a2 : (dc : Int) * l.maxDc ≤ dc * 65535 := mul_le_mul_of_nonneg_left (by omega) (by omega)
  have a3 : (0 : Int) ≤ (255 - dc) * l.minDc := by positivity
  have a4 : (0 : Int) ≤ (dc : Int) * l.maxDc := by positivity
  unfold Level.dc
  rw [e]
  constructor <;> omega

theorem coef_range (vs : List Nat) : ∀ (cs : List Coef), (∀ v ∈ vs, v < 8) → CoefsFit vs cs → ∀ c ∈ cs, -32768 ≤ c.value ∧ c.value ≤ 32767 := by
  induction vs with
  | nil => intro cs _ h; cases cs with
    | nil => simp
    | cons c cs => exact absurd h (by simp [CoefsFit])
  | cons v vs ih => intro cs hv h; cases cs with
    | nil => simp
    | cons c cs =>
      intro c' hc'
      rcases List.mem_cons.1 hc' with rfl | hc'
      · have h1 := h.1
        have hsz : (codeOf v).1 ≤ 609 := by
          have : ∀ v < 8, (codeOf v).1 ≤ 609 := by decide
          exact this v (hv v (by simp))
        cases c' with
        | small c => simp only [Coef.Fits] at h1; simp only [Coef.value]; omega
        | negative m => simp only [Coef.Fits] at h1; simp only [Coef.value]; omega
        | positive m => simp only [Coef.Fits] at h1; simp only [Coef.value]; omega
      · exact ih cs (fun x hx => hv x (by simp [hx])) h.2 c' hc'

/-- **C60 (pixels).** Every pixel of a block is the inverse cosine transform of its coefficients, divided by 127, from 0 to 255 and
rounded to a nearest integer: it is never off by more than 1/2 and the error of double arithmetic. -/
theorem C60_pixels (R : Rounding double) (spacing : Nat) (hsp : spacing < 65536) (n : Nat) (f : Coded) (hf : f.Fits n) (b : Block) (hb : b ∈ f.blocks)
    (i j : Nat) (hi : i < 16) (hj : j < 16) :
    |((blockPixel (invFdct R) spacing f b i j : Nat) : ℝ) - b.shows (f.levels b.level) spacing i j| ≤ 1 / 2 + 1 / 1000 := by
  obtain ⟨hl, hdc, hcl, hcf⟩ := hf.2 b hb
  obtain ⟨hmin, hmax, hvl, hv⟩ := hf.1 b.level hl
  have hget : ∀ k, ((List.range 256).map (b.placed (f.levels b.level) spacing)).getD k 0 = if k < 256 then b.placed (f.levels b.level) spacing k else 0 := by
    intro k
    rw [List.getD_eq_getElem?_getD, List.getElem?_map]
    by_cases hk : k < 256
    · rw [List.getElem?_range hk, if_pos hk]
      rfl
    · rw [List.getElem?_eq_none (by simp; omega), if_neg hk]
      rfl
  have hr := dc_range (f.levels b.level) hmin hmax b.dc hdc
  have hco : ∀ k, |b.coefficients (f.levels b.level) spacing k| ≤ 2 ^ 31 - 2 ^ 15 := by
    intro k
    unfold Block.coefficients
    split
    · rw [abs_le]
      constructor <;> omega
    · rw [List.getD_eq_getElem?_getD, List.getElem?_map]
      cases hc : b.coefs[k - 1]? with
      | none => simp
      | some c =>
        simp only [Option.map_some, Option.getD_some]
        have := coef_range _ _ hv hcf c (List.mem_of_getElem? hc)
        have hs : (spacing : Int) ≤ 65535 := by omega
        have hs0 : (0 : Int) ≤ spacing := by omega
        rw [abs_le]
        constructor <;> nlinarith
  have h := inv_pixel R ((List.range 256).map (b.placed (f.levels b.level) spacing)) (by
      rw [hget, if_pos (by decide)]
      exact hr) (by
      intro k
      rw [hget]
      split
      · exact hco _
      · simp) i j hi hj
  have e : inverseDct2 (fun k => ((((List.range 256).map (b.placed (f.levels b.level) spacing)).getD k 0 : Int) : ℝ)) i j =
      inverseDct2 (fun k => (b.placed (f.levels b.level) spacing k : ℝ)) i j := by
    unfold inverseDct2
    refine Finset.sum_congr rfl fun u hu => Finset.sum_congr rfl fun v hv => ?_
    rw [Finset.mem_range] at hu hv
    beta_reduce
    rw [hget, if_pos (by omega)]
  rw [e] at h
  exact h

/-- **C60.** The image of a transform-coded fragment: the pixel at line `r` and column `c` is the value there of the cosine transform of
the coefficients of its block, to the nearest integer. The header says transform 2 - 1 and the number of levels; the
step between values of coefficients is in two bytes. Bytes after the coded fragment do not matter. -/
theorem C60_image (R : Rounding double) (h : Header) (hx : h.xcomp = 2) (hb : ∀ x ∈ h.compression, x < 256) (f : Coded)
    (hf : f.Fits (h.compression.getD 1 0 / 32 + 1)) (hlen : f.blocks.length = h.editLength * h.downLength)
    (post : List Nat) (hpost : ∀ x ∈ post, x < 256) :
    ∃ px : Nat → Nat → Nat,
      decompressTransform R h (pack (f.bits (h.compression.getD 1 0 / 32 + 1)) ++ post) =
        .ok ((List.range (h.downLength * 16)).map fun r => (List.range (h.editLength * 16)).map fun c => px r c, true) ∧
      ∀ r c, r < h.downLength * 16 → c < h.editLength * 16 →
        |(px r c : ℝ) - (f.blocks.getD (c / 16 * h.downLength + r / 16) ⟨0, 0, []⟩).shows
          (f.levels (f.blocks.getD (c / 16 * h.downLength + r / 16) ⟨0, 0, []⟩).level) (h.compression.getD 4 0 + 256 * h.compression.getD 5 0) (r % 16) (c % 16)|
          ≤ 1 / 2 + 1 / 1000 := by
  have hbyte : ∀ k, h.compression.getD k 0 < 256 := by
    intro k
    rw [List.getD_eq_getElem?_getD]
    cases hc : h.compression[k]? with
    | none => simp
    | some c => exact hb c (List.mem_of_getElem? hc)
  have hsp : (h.compression.getD 4 0 ||| h.compression.getD 5 0 <<< 8) = h.compression.getD 4 0 + 256 * h.compression.getD 5 0 := by
    have h4 := hbyte 4
    rw [Nat.or_comm, Nat.shiftLeft_eq, show 2 ^ 8 = 256 by rfl, show h.compression.getD 5 0 * 256 = 2 ^ 8 * h.compression.getD 5 0 by ring,
      ← Nat.two_pow_add_eq_or_of_lt (i := 8) h4]
    ring
  have h4 := hbyte 4
  have h5 := hbyte 5
  have h1 := hbyte 1
  refine ⟨fun r c => blockPixel (invFdct R) (h.compression.getD 4 0 + 256 * h.compression.getD 5 0) f
    (f.blocks.getD (c / 16 * h.downLength + r / 16) ⟨0, 0, []⟩) (r % 16) (c % 16), ?_, ?_⟩
  · unfold decompressTransform
    rw [hsp, hx, show ((2 : Nat) : Int) - 1 = 1 by rfl]
    exact C60_blocks R (invFdct R) _ (by omega) _ _ _ (by omega) f hf hlen post hpost
  · intro r c hr hc
    have hidx : c / 16 * h.downLength + r / 16 < f.blocks.length := by
      rw [hlen]
      have a1 : c / 16 + 1 ≤ h.editLength := by omega
      have a2 : r / 16 < h.downLength := by omega
      calc c / 16 * h.downLength + r / 16 < c / 16 * h.downLength + h.downLength := by omega
        _ = (c / 16 + 1) * h.downLength := by ring
        _ ≤ h.editLength * h.downLength := Nat.mul_le_mul_right _ a1
    refine C60_pixels R _ (by omega) _ f hf _ ?_ _ _ (Nat.mod_lt _ (by decide)) (Nat.mod_lt _ (by decide))
    rw [List.getD_eq_getElem?_getD, List.getElem?_eq_getElem hidx]
    exact List.getElem_mem hidx

/-- **C60 (flat blocks).** A block without coefficients has the same value everywhere, its mean on a scale of 254. -/
theorem C60_flat (R : Rounding double) (spacing : Nat) (hsp : spacing < 65536) (n : Nat) (f : Coded) (hf : f.Fits n) (b : Block) (hb : b ∈ f.blocks)
    (hc : b.coefs = []) (i j : Nat) (hi : i < 16) (hj : j < 16) :
    |((blockPixel (invFdct R) spacing f b i j : Nat) : ℝ) - min 255 (((f.levels b.level).dc b.dc : ℝ) / 254)| ≤ 1 / 2 + 1 / 1000 := by
  obtain ⟨hl, hdc, _, _⟩ := hf.2 b hb
  obtain ⟨hmin, hmax, _, _⟩ := hf.1 b.level hl
  have hr := dc_range (f.levels b.level) hmin hmax b.dc hdc
  have h := C60_pixels R spacing hsp n f hf b hb i j hi hj
  have ht : ∀ k < 256, 0 < k → trans.getD k 0 ≠ 0 := by decide +kernel
  have hp : ∀ k, k < 256 → b.placed (f.levels b.level) spacing k = if k = 0 then (f.levels b.level).dc b.dc else 0 := by
    intro k hk
    unfold Block.placed Block.coefficients
    by_cases h0 : k = 0
    · subst h0
      rfl
    · rw [if_neg (ht k hk (by omega)), if_neg h0, hc]
      rfl
  have hs : b.shows (f.levels b.level) spacing i j = min 255 (((f.levels b.level).dc b.dc : ℝ) / 254) := by
    have hsum : inverseDct2 (fun k => (b.placed (f.levels b.level) spacing k : ℝ)) i j = (f.levels b.level).dc b.dc / 2 := by
      unfold inverseDct2
      rw [Finset.sum_eq_single 0, Finset.sum_eq_single 0]
      · beta_reduce
        rw [hp _ (by decide)]
        simp only [mul_zero, weight]
        rw [cosine_zero]
        norm_num
        have : Real.sqrt 2 * Real.sqrt 2 = 2 := Real.mul_self_sqrt (by norm_num)
        linear_combination ((f.levels b.level).dc b.dc : ℝ) / 4 * this
      · intro v hv hv0
        rw [Finset.mem_range] at hv
        beta_reduce
        rw [hp _ (by omega), if_neg (by omega)]
        simp
      · intro h
        simp at h
      · intro u hu hu0
        rw [Finset.mem_range] at hu
        refine Finset.sum_eq_zero fun v hv => ?_
        rw [Finset.mem_range] at hv
        beta_reduce
        rw [hp _ (by omega), if_neg (by omega)]
        simp
      · intro h
        simp at h
    unfold Block.shows
    rw [hsum, max_eq_right]
    · congr 1
      ring
    · refine le_min (by norm_num) ?_
      have : (0 : ℝ) ≤ (f.levels b.level).dc b.dc := by exact_mod_cast hr.1
      positivity
  rw [hs] at h
  exact h

/-- **C60 (any bytes, with the transform).** -/
theorem C60_any (R : Rounding double) (h : Header) (data : List Nat) :
    decompressTransform R h data = .error .valueError ∨
    ∃ rows complete, decompressTransform R h data = .ok (rows, complete) ∧
      rows.length = h.downLength * 16 ∧ ∀ row ∈ rows, row.length = h.editLength * 16 ∧ ∀ v ∈ row, v < 256 := by
  rcases C60_total R (invFdct R) (inv_lt R) data h.editLength h.downLength ((h.xcomp : Int) - 1)
    (h.compression.getD 4 0 ||| h.compression.getD 5 0 <<< 8) (h.compression.getD 1 0 / 32 + 1) with h | h
  · exact .inl h.1
  · exact .inr h

/-! ### files -/

theorem load_xform_step (xform : Header → List Nat → Except PyErr (List (List Nat))) (file : List Nat) (fuel total : Nat) (first : Option Header)
    (frags : List Nat) (parts : List (List Nat)) (f : Fragment) (rest : List Nat) (hf : Good f)
    (hd : file.drop (total + 2048) = f.bytes ++ rest) (hx : (parseHeader f.head).xcomp ≠ 0) (hp : (parseHeader f.head).pcomp ≠ 1) :
    loadFrom xform file (fuel + 1) total first frags parts =
      (xform (parseHeader f.head) f.body).bind fun part =>
        loadFrom xform file fuel (total + 62 + f.body.length + 1) (some (first.getD (parseHeader f.head))) frags (parts ++ part) := by
  obtain ⟨h1, h2, h3⟩ := hf
  have hhead : (file.drop (total + 2048)).take headerSize = f.head := by
    rw [hd, Fragment.bytes, List.append_assoc, List.append_assoc]
    exact List.take_left' h1
  have hbody : (file.drop (total + 2048 + headerSize)).take f.body.length = f.body := by
    rw [← List.drop_drop, hd, Fragment.bytes, List.append_assoc, List.append_assoc, headerSize, List.drop_left' h1]
    exact List.take_left' rfl
  have hl0 : ¬ f.body.length = 0 := by simpa using h3
  have hbody' := hbody
  rw [headerSize] at hbody' hhead
  cases first <;>
  · rw [loadFrom]
    simp only [hhead, h1, h2, hbody', hl0, hx, hp, headerSize, if_false, lt_irrefl, ne_eq, and_false, or_self]

theorem load_xform (xform : Header → List Nat → Except PyErr (List (List Nat))) (file rest : List Nat) (hrest : rest.length < 62)
    (part : Fragment → List (List Nat)) (fs : List Fragment) : ∀ (fuel total : Nat) (first : Header) (parts : List (List Nat)), first.xcomp ≠ 0 →
    (∀ f ∈ fs, Good f ∧ (parseHeader f.head).xcomp ≠ 0 ∧ (parseHeader f.head).pcomp ≠ 1 ∧ xform (parseHeader f.head) f.body = .ok (part f)) →
    fs.length < fuel → file.drop (total + 2048) = fs.flatMap Fragment.bytes ++ rest →
    loadFrom xform file fuel total (some first) [] parts = .ok (parts ++ fs.flatMap part) := by
  induction fs with
  | nil =>
    intro fuel total first parts hx _ hfuel hd
    cases fuel with
    | zero => simp at hfuel
    | succ fuel =>
      rw [List.flatMap_nil, List.nil_append] at hd
      rw [loadFrom]
      simp only [hd]
      rw [if_pos (by simp [headerSize]; omega), if_neg hx]
      simp
  | cons f fs ih =>
    intro fuel total first parts hx hall hfuel hd
    cases fuel with
    | zero => simp at hfuel
    | succ fuel =>
      obtain ⟨hf, hfx, hfp, he⟩ := hall f (by simp)
      rw [load_xform_step xform file fuel total (some first) [] parts f (fs.flatMap Fragment.bytes ++ rest) hf
        (by rw [hd, List.flatMap_cons]; simp) hfx hfp, he]
      simp only [Option.getD_some, Except.bind]
      rw [ih fuel _ _ _ hx (fun g hg => hall g (by simp [hg])) (by simpa using hfuel)]
      · simp
      · rw [show total + 62 + f.body.length + 1 + 2048 = (total + 2048) + (62 + f.body.length + 1) by omega, ← List.drop_drop, hd,
          List.flatMap_cons, List.append_assoc]
        exact List.drop_left' (by simp [Fragment.bytes, hf.1]; omega)

theorem load_parts (xform : Header → List Nat → Except PyErr (List (List Nat))) (label : List Nat) (hlabel : label.length = 2048)
    (part : Fragment → List (List Nat)) (fs : List Fragment) (hne : fs ≠ [])
    (hfs : ∀ f ∈ fs, Good f ∧ (parseHeader f.head).xcomp ≠ 0 ∧ (parseHeader f.head).pcomp ≠ 1 ∧ xform (parseHeader f.head) f.body = .ok (part f))
    (rest : List Nat) (hrest : rest.length < 62) :
    load xform (label ++ (fs.flatMap Fragment.bytes ++ rest)) = .ok (fs.flatMap part) := by
  cases fs with
  | nil => exact absurd rfl hne
  | cons f fs =>
    obtain ⟨hf, hfx, hfp, he⟩ := hfs f (by simp)
    have hlen : ∀ gs : List Fragment, gs.length ≤ (gs.flatMap Fragment.bytes).length := by
      intro gs
      induction gs with
      | nil => simp
      | cons f fs ih => simp only [List.flatMap_cons, List.length_append, List.length_cons, Fragment.bytes, List.length_nil] at ih ⊢; omega
    have hd : (label ++ ((f :: fs).flatMap Fragment.bytes ++ rest)).drop (0 + 2048) = f.bytes ++ (fs.flatMap Fragment.bytes ++ rest) := by
      rw [List.flatMap_cons, List.append_assoc]
      exact List.drop_left' (by omega)
    unfold load
    rw [load_xform_step xform _ _ 0 none [] [] f _ hf hd hfx hfp, he]
    simp only [Except.bind, Option.getD_none, List.nil_append]
    rw [load_xform xform _ rest hrest part fs _ _ _ _ hfx (fun g hg => hfs g (by simp [hg]))]
    · simp
    · have := hlen (f :: fs)
      simp only [List.length_append, List.length_cons] at this ⊢
      omega
    · rw [show 0 + 62 + f.body.length + 1 + 2048 = (0 + 2048) + (62 + f.body.length + 1) by omega, ← List.drop_drop, hd]
      exact List.drop_left' (by simp [Fragment.bytes, hf.1]; omega)

/-- a pixel of an image, 0 if there is none -/
def pixelOf (x : Except PyErr (List (List Nat) × Bool)) (r c : Nat) : Nat :=
  match x with
  | .ok q => (q.1.getD r []).getD c 0
  | .error _ => 0

theorem pixel_of (px : Nat → Nat → Nat) (w h r c : Nat) (hr : r < h) (hc : c < w) :
    pixelOf (.ok ((List.range h).map fun r => (List.range w).map fun c => px r c, true)) r c = px r c := by
  simp [pixelOf, List.getD_eq_getElem?_getD, hr, hc]

/-- **C60 (files).** A file of label, transform-coded fragments of the same width and less than a header at the end is read as the images of
its fragments below each other. A fragment's header has its height and width (bytes 6 to 7 and 43, in units of 16),
the transform (bits 2 and 3 of byte 44), the number of levels less 1 (bits 5 to 7 of byte 45), and the step between values of
coefficients (bytes 48 to 49). -/
theorem C60_file (R : Rounding double) (label : List Nat) (hlabel : label.length = 2048) (W : Nat) (fs : List (Fragment × Coded)) (hne : fs ≠ [])
    (hfs : ∀ p ∈ fs, p.1.head.length = 62 ∧ (∀ x ∈ p.1.head, x < 256) ∧ field p.1.head 58 4 = p.1.body.length ∧ p.1.body ≠ [] ∧
      field p.1.head 44 1 / 4 % 4 = 2 ∧ field p.1.head 44 1 % 4 ≠ 1 ∧ field p.1.head 43 1 = W ∧
      p.2.Fits (field p.1.head 45 1 / 32 + 1) ∧ p.2.blocks.length = W * field p.1.head 6 2 ∧
      ∃ post, (∀ x ∈ post, x < 256) ∧ p.1.body = pack (p.2.bits (field p.1.head 45 1 / 32 + 1)) ++ post)
    (rest : List Nat) (hrest : rest.length < 62) :
    ∃ px : Fragment → Nat → Nat → Nat,
      load (fun h d => (decompressTransform R h d).map (·.1)) (label ++ ((fs.map (·.1)).flatMap Fragment.bytes ++ rest)) =
        .ok ((fs.map (·.1)).flatMap fun f =>
          (List.range (field f.head 6 2 * 16)).map fun r => (List.range (W * 16)).map fun c => px f r c) ∧
      ∀ p ∈ fs, ∀ r c, r < field p.1.head 6 2 * 16 → c < W * 16 →
        |(px p.1 r c : ℝ) - (p.2.blocks.getD (c / 16 * field p.1.head 6 2 + r / 16) ⟨0, 0, []⟩).shows
          (p.2.levels (p.2.blocks.getD (c / 16 * field p.1.head 6 2 + r / 16) ⟨0, 0, []⟩).level) (field p.1.head 48 2) (r % 16) (c % 16)|
          ≤ 1 / 2 + 1 / 1000 := by
  have key : ∀ p ∈ fs, (Good p.1 ∧ (parseHeader p.1.head).xcomp ≠ 0 ∧ (parseHeader p.1.head).pcomp ≠ 1) ∧ ∃ px : Nat → Nat → Nat,
      decompressTransform R (parseHeader p.1.head) p.1.body =
        .ok ((List.range (field p.1.head 6 2 * 16)).map fun r => (List.range (W * 16)).map fun c => px r c, true) ∧
      ∀ r c, r < field p.1.head 6 2 * 16 → c < W * 16 →
        |(px r c : ℝ) - (p.2.blocks.getD (c / 16 * field p.1.head 6 2 + r / 16) ⟨0, 0, []⟩).shows
          (p.2.levels (p.2.blocks.getD (c / 16 * field p.1.head 6 2 + r / 16) ⟨0, 0, []⟩).level) (field p.1.head 48 2) (r % 16) (c % 16)|
          ≤ 1 / 2 + 1 / 1000 := by
    intro p hp
    obtain ⟨a1, ab, a2, a3, a4, a5, a6, a7, a8, post, a9, a10⟩ := hfs p hp
    obtain ⟨e1, e2, e3, e4, e5, e6⟩ := C24_header p.1.head
    have e60 := e6 0 (by omega)
    have e61 := e6 1 (by omega)
    have e64 := e6 4 (by omega)
    have e65 := e6 5 (by omega)
    have ex : (parseHeader p.1.head).xcomp = 2 := by rw [Header.xcomp, e60]; exact a4
    refine ⟨⟨⟨a1, by rw [e5, a2], a3⟩, by rw [ex]; decide, by rw [Header.pcomp, e60]; exact a5⟩, ?_⟩
    have h48 : field p.1.head 48 2 = field p.1.head 48 1 + 256 * field p.1.head 49 1 := by
      rw [field_succ p.1.head 48 1, field_one, field_one]
    have := C60_image R (parseHeader p.1.head) ex (fun x hx => ab x (List.mem_of_mem_drop (List.mem_of_mem_take hx))) p.2
      (by rw [e61]; exact a7) (by rw [e4, e1, a6]; exact a8) post a9
    rw [e61, ← a10, e1, e4, a6, e64, e65, ← h48] at this
    exact this
  have hpair : ∀ f ∈ fs.map (·.1), ∃ px : Nat → Nat → Nat, decompressTransform R (parseHeader f.head) f.body =
        .ok ((List.range (field f.head 6 2 * 16)).map fun r => (List.range (W * 16)).map fun c => px r c, true) := by
    intro f hf
    obtain ⟨p, hp, rfl⟩ := List.mem_map.1 hf
    obtain ⟨_, px, h, _⟩ := key p hp
    exact ⟨px, h⟩
  refine ⟨fun f => pixelOf (decompressTransform R (parseHeader f.head) f.body), ?_, ?_⟩
  · refine load_parts _ label hlabel _ (fs.map (·.1)) (by simpa using hne) ?_ rest hrest
    intro f hf
    obtain ⟨p, hp, rfl⟩ := List.mem_map.1 hf
    obtain ⟨⟨g1, g2, g3⟩, px, h, _⟩ := key p hp
    refine ⟨g1, g2, g3, ?_⟩
    rw [h]
    simp only [Except.map, Except.ok.injEq]
    apply List.map_congr_left
    intro r hr
    apply List.map_congr_left
    intro c hc
    rw [List.mem_range] at hr hc
    rw [h, pixel_of px _ _ r c hr hc]
  · intro p hp r c hr hc
    obtain ⟨_, px, h, hpx⟩ := key p hp
    have := hpx r c hr hc
    beta_reduce
    rw [h, pixel_of px _ _ r c hr hc]
    exact this

/-! ### an example -/

/-- one block, eight levels, 102 bytes -/
def exampleTransform : Fragment :=
  ⟨[0, 0, 0, 0, 0, 0, 1, 0] ++ List.replicate 35 0 ++ [1, 8, 224, 0, 0, 10, 0, 0, 0, 0, 0, 0, 0, 0, 0, 102, 0, 0, 0],
    255 :: List.replicate 100 0 ++ [255], 9⟩

example (R : Rounding double) : ∃ px : Fragment → Nat → Nat → Nat,
    load (fun h d => (decompressTransform R h d).map (·.1)) (List.replicate 2048 32 ++ (exampleTransform.bytes ++ [1, 2, 3])) =
      .ok ((List.range 16).map fun r => (List.range 16).map fun c => px exampleTransform r c) := by
  obtain ⟨px, h, _⟩ := C60_file R (List.replicate 2048 32) List.length_replicate 1 [(exampleTransform, exampleFlat)] (by simp)
    (by
      intro p hp
      rw [List.mem_singleton] at hp
      subst hp
      refine ⟨by decide +kernel, by decide +kernel, by decide +kernel, by simp [exampleTransform], by decide +kernel, by decide +kernel,
        by decide +kernel, ?_, by decide +kernel, [], by simp, by decide +kernel⟩
      rw [show field exampleTransform.head 45 1 / 32 + 1 = 8 by decide +kernel]
      exact flat_fits) [1, 2, 3] (by decide)
  refine ⟨px, ?_⟩
  simp only [List.map_cons, List.map_nil, List.flatMap_cons, List.flatMap_nil, List.append_nil] at h
  rw [h, show field exampleTransform.head 6 2 = 1 by decide +kernel]

end Verif.Moc
