import Verif.Proofs.Histogram
import Verif.Proofs.Rounding
/-!
# Properties of histogram matching (C59, C69)
-/

namespace Verif.Histogram

set_option linter.unusedSectionVars false

variable {K : Type*} [Field K] [LinearOrder K] [IsStrictOrderedRing K] [FloorRing K]

/-- A monotone rounding: if `a` is at most `b` then so are the roundings. Rounding to nearest is one, and so is no rounding. -/
def MonotoneRounding (fl : K → K) : Prop := ∀ a b, a ≤ b → fl a ≤ fl b

/-- **C59**: for all images (with whatever values), templates and roundings the results are the integers 0 to 255, one per
pixel. -/
theorem C59_in_range (fl : K → K) (template : Nat → K) (src : List K) :
    (matchHistogram fl template src).length = src.length ∧
    ∀ r, r ∈ matchHistogram fl template src → ∃ n : Nat, n ≤ 255 ∧ r = n := by
  refine ⟨by simp [matchHistogram], fun r hr => ?_⟩
  unfold matchHistogram at hr
  obtain ⟨v, _, rfl⟩ := List.mem_map.1 hr
  exact ⟨_, by unfold search; omega, rfl⟩

/-- **C59**: for all images and templates of counts, and every monotone rounding, the order of two pixels is never reversed, and
equal pixels stay equal. -/
theorem C59_monotone (fl : K → K) (hfl : MonotoneRounding fl) (template : Nat → K) (src : List K) (m n : Nat) (v w r s : K)
    (hv : src[m]? = some v) (hw : src[n]? = some w) (hr : (matchHistogram fl template src)[m]? = some r)
    (hs : (matchHistogram fl template src)[n]? = some s) : (v ≤ w → r ≤ s) ∧ (v = w → r = s) := by
  unfold matchHistogram at hr hs
  rw [List.getElem?_map, hv] at hr
  rw [List.getElem?_map, hw] at hs
  cases hr; cases hs
  constructor
  · intro h
    unfold matchPixel
    have := search_mono (t := cdf fl template)
      (cdf_mono hfl (fun i _ => counts_nonneg src i) (level_mono h) (level_le w))
    exact_mod_cast this
  · rintro rfl; rfl

/-- **C59** (partial): with the image's own histogram as template every pixel becomes its integer part, so the result is the image
itself if the image has integer values. Missing from C59: images with other values (`C59_refuted`). -/
theorem C59_own_histogram_partial (src : List K) (template : Nat → K) (hs : ∀ v, v ∈ src → 0 ≤ v ∧ v ≤ 255)
    (ht : ∀ i, i ≤ 255 → template i = (src.filter (fun v => decide ((i : K) ≤ v) && decide (v < (i : K) + 1))).length) :
    matchHistogram id template src = src.map (fun v => (⌊v⌋ : K)) ∧
    ((∀ v, v ∈ src → ∃ n : Nat, v = n) → matchHistogram id template src = src) := by
  have hs' : ∀ v, v ∈ src → 0 ≤ v ∧ v ≤ 256 := fun v hv => ⟨(hs v hv).1, (hs v hv).2.trans (by norm_num)⟩
  have htc : ∀ i, i ≤ 255 → template i = counts src i := by
    intro i hi
    rw [ht i hi]
    unfold counts
    congr 2
    refine List.filter_congr (fun v hv => ?_)
    unfold inBin
    by_cases h1 : v < (i : K) + 1
    · simp [h1]
    · have h2 : ¬ (i = 255) := by
        rintro rfl
        have := (hs v hv).2
        exact h1 (by push_cast; linarith)
      simp [h1, h2]
  have hcum : ∀ k, k ≤ 255 → cumsum template k = cumsum (counts src) k := by
    intro k
    induction k with
    | zero => intro _; unfold cumsum; simp [htc 0 (by omega)]
    | succ k ih => intro hk; rw [cumsum_succ, cumsum_succ, ih (by omega), htc _ hk]
  have hmain : matchHistogram id template src = src.map (fun v => (⌊v⌋ : K)) := by
    unfold matchHistogram
    refine List.map_congr_left (fun v hv => ?_)
    have hpos : (0 : K) < src.length := by exact_mod_cast List.length_pos_of_mem hv
    have hlev := level_eq (hs v hv).1
    have hf0 : 0 ≤ ⌊v⌋ := Int.floor_nonneg.2 (hs v hv).1
    have hf1 : ⌊v⌋ ≤ 255 := by
      have : (⌊v⌋ : K) ≤ 255 := (Int.floor_le v).trans (hs v hv).2
      exact_mod_cast this
    have hle : level v = ⌊v⌋.toNat := by omega
    have hT : ∀ k, k ≤ 255 → cdf id template k = ((src.filter (fun v => decide (level v ≤ k))).length : K) / src.length := by
      intro k hk
      show cumsum template k / cumsum template 255 = _
      rw [hcum k hk, hcum 255 (le_refl _), cumsum_counts hs' hk, cumsum_all hs']
    have hS : ∀ k, k ≤ 255 → cdf id (counts src) k = ((src.filter (fun v => decide (level v ≤ k))).length : K) / src.length := by
      intro k hk
      show cumsum (counts src) k / cumsum (counts src) 255 = _
      rw [cumsum_counts hs' hk, cumsum_all hs']
    have htm : ∀ j k, j ≤ k → k ≤ 255 → cdf id template j ≤ cdf id template k := fun j k hjk hk =>
      cdf_mono (fun _ _ h => h) (fun i hi => by rw [htc i hi]; exact counts_nonneg src i) hjk hk
    -- below the pixel's level the cumulative histogram is strictly smaller
    have hstrict : ∀ k, k < level v → cdf id template k < cdf id (counts src) (level v) := by
      intro k hk
      rw [hT k (by have := level_le v; omega), hS _ (level_le v), div_lt_div_iff_of_pos_right hpos]
      have hsub : (src.filter (fun w => decide (level w ≤ k))).length < (src.filter (fun w => decide (level w ≤ level v))).length := by
        clear hS hT htm hcum htc ht hs hs' hpos
        induction src with
        | nil => cases hv
        | cons a l ih =>
          simp only [List.filter_cons, decide_eq_true_eq]
          rcases List.mem_cons.1 hv with rfl | hv'
          · rw [if_neg (by omega), if_pos (le_refl _), List.length_cons]
            have := length_filter_mono (l := l) (p := fun w => decide (level w ≤ k)) (q := fun w => decide (level w ≤ level v))
              (fun w _ h => by simp only [decide_eq_true_eq] at h ⊢; omega)
            omega
          · have := ih hv'
            split
            · rw [if_pos (by omega)]; simpa using this
            · split
              · simp only [List.length_cons]; omega
              · exact this
      exact_mod_cast hsub
    have hself : cdf id (counts src) (level v) ≤ cdf id template (level v) := by
      rw [hT _ (level_le v), hS _ (level_le v)]
    have hsearch : search (cdf id template) (cdf id (counts src) (level v)) = level v := by
      by_cases h255 : level v < 255
      · have h1 := (search_le htm (cdf id (counts src) (level v)) h255).2 hself
        rcases Nat.eq_zero_or_pos (level v) with h0 | h0
        · omega
        · by_contra hne
          have h2 := (search_le htm (cdf id (counts src) (level v)) (k := level v - 1) (by omega)).1 (by omega)
          exact absurd h2 (not_le.2 (hstrict _ (by omega)))
      · have he : level v = 255 := by have := level_le v; omega
        have hup : search (cdf id template) (cdf id (counts src) (level v)) ≤ 255 := by unfold search; omega
        by_contra hne
        have h2 := (search_le htm (cdf id (counts src) (level v)) (k := 254) (by omega)).1 (by omega)
        exact absurd h2 (not_le.2 (hstrict 254 (by omega)))
    unfold matchPixel
    rw [hsearch, hle, ← Int.cast_natCast, Int.toNat_of_nonneg hf0]
  refine ⟨hmain, fun hint => ?_⟩
  rw [hmain]
  conv_rhs => rw [← List.map_id src]
  refine List.map_congr_left (fun v hv => ?_)
  obtain ⟨n, rfl⟩ := hint v hv
  simp

/-- **C59 is false for images that are not integer-valued**, as all rendered images are: a pixel of intensity 3/2 becomes 1. -/
theorem C59_refuted : ∃ (src : List ℚ) (template : Nat → ℚ), (∀ v, v ∈ src → 0 ≤ v ∧ v ≤ 255) ∧
    (∀ i, i ≤ 255 → template i = (src.filter (fun v => decide ((i : ℚ) ≤ v) && decide (v < (i : ℚ) + 1))).length) ∧
    matchHistogram id template src ≠ src :=
  ⟨[3 / 2, 4], fun i => if i = 1 ∨ i = 4 then 1 else 0, by decide +kernel, by decide +kernel, by decide +kernel⟩

/-- The heart of C69, in terms of the model's bins: the result follows the template. For every level `k` the number of result pixels up to `k` never exceeds the number
that the template asks for (scaled to the image), and falls short of it by at most the number of pixels that share one
source level. -/
theorem follows_template_bins (src : List K) (template : Nat → K) (hs : ∀ v, v ∈ src → 0 ≤ v ∧ v ≤ 256)
    (ht : ∀ i, i ≤ 255 → 0 ≤ template i) (hpos : 0 < cumsum template 255) (B : Nat)
    (hB : ∀ i, i ≤ 255 → (src.filter (inBin i)).length ≤ B) {k : Nat} (hk : k ≤ 255) :
    let wanted := cumsum template k / cumsum template 255 * src.length
    let got := (((matchHistogram id template src).filter (fun r => decide (r ≤ (k : K)))).length : K)
    got ≤ wanted ∧ wanted ≤ got + B := by
  have htm : ∀ j k, j ≤ k → k ≤ 255 → cdf id template j ≤ cdf id template k := fun j k hjk hk =>
    cdf_mono (fun _ _ h => h) ht hjk hk
  have hgot : ((matchHistogram id template src).filter (fun r => decide (r ≤ (k : K)))).length =
      (src.filter (fun v => decide (search (cdf id template) (cdf id (counts src) (level v)) ≤ k))).length := by
    unfold matchHistogram
    rw [List.filter_map, List.length_map]
    congr 1
    refine List.filter_congr (fun v _ => ?_)
    simp only [Function.comp, matchPixel, Nat.cast_le]
  dsimp only
  rw [hgot]
  have hB0 : (0 : K) ≤ B := Nat.cast_nonneg B
  rcases Nat.eq_or_lt_of_le hk with rfl | hk'
  · have : (src.filter (fun v => decide (search (cdf id template) (cdf id (counts src) (level v)) ≤ 255))) = src := by
      rw [List.filter_eq_self]
      intro v _
      simp only [decide_eq_true_eq]
      unfold search; omega
    rw [this, div_self hpos.ne', one_mul]
    exact ⟨le_refl _, by linarith⟩
  · rw [List.filter_congr (q := fun v => decide (cdf id (counts src) (level v) ≤ cdf id template k))
      (fun v _ => by rw [Bool.eq_iff_iff]; simp only [decide_eq_true_eq]; exact search_le htm _ hk')]
    have hT : cumsum template k / cumsum template 255 = cdf id template k := rfl
    rw [hT]
    have hT0 : 0 ≤ cdf id template k := div_nonneg (cumsum_nonneg ht (by omega)) hpos.le
    have hT1 : cdf id template k ≤ 1 := by
      show cumsum template k / cumsum template 255 ≤ 1
      rw [div_le_one hpos]; exact cumsum_mono ht (by omega) (le_refl _)
    rcases Nat.eq_zero_or_pos src.length with h0 | h0
    · have : src = [] := List.length_eq_zero_iff.1 h0
      subst this; simp
    have hN : (0 : K) < src.length := by exact_mod_cast h0
    have hS : ∀ v : K, cdf id (counts src) (level v) * src.length = ((src.filter (fun w => decide (level w ≤ level v))).length : K) := by
      intro v
      show cumsum (counts src) (level v) / cumsum (counts src) 255 * src.length = _
      rw [cumsum_counts hs (level_le v), cumsum_all hs, div_mul_cancel₀ _ hN.ne']
    constructor
    · by_cases hA : ∃ v, v ∈ src ∧ cdf id (counts src) (level v) ≤ cdf id template k
      · obtain ⟨v, hv, hp, hmax⟩ := exists_greatest src _ hA
        have h1 := length_filter_mono (l := src) (p := fun v => decide (cdf id (counts src) (level v) ≤ cdf id template k))
          (q := fun w => decide (level w ≤ level v)) (fun w hw h => by
            simp only [decide_eq_true_eq] at h ⊢; exact hmax w hw h)
        have h2 : ((src.filter (fun v => decide (cdf id (counts src) (level v) ≤ cdf id template k))).length : K) ≤
            (src.filter (fun w => decide (level w ≤ level v))).length := by exact_mod_cast h1
        refine h2.trans ?_
        rw [← hS v]
        exact mul_le_mul_of_nonneg_right hp hN.le
      · have : src.filter (fun v => decide (cdf id (counts src) (level v) ≤ cdf id template k)) = [] := by
          rw [List.filter_eq_nil_iff]
          intro v hv h
          simp only [decide_eq_true_eq] at h
          exact hA ⟨v, hv, h⟩
        rw [this]
        simp only [List.length_nil, Nat.cast_zero]
        exact mul_nonneg hT0 hN.le
    · by_cases hA : ∃ v, v ∈ src ∧ ¬ cdf id (counts src) (level v) ≤ cdf id template k
      · obtain ⟨v, hv, hp, hmin⟩ := exists_least src _ hA
        have hsplit : (src.filter (fun w => decide (level w ≤ level v))).length ≤
            (src.filter (fun v => decide (cdf id (counts src) (level v) ≤ cdf id template k))).length +
              (src.filter (inBin (level v))).length := by
          have e : src.filter (inBin (level v)) = src.filter (fun w => decide (level w = level v)) :=
            List.filter_congr (fun w hw => inBin_iff (hs w hw).1 (hs w hw).2 (level_le v))
          rw [e]
          rw [← List.countP_eq_length_filter, ← List.countP_eq_length_filter, ← List.countP_eq_length_filter]
          have : ∀ l : List K, (∀ w, w ∈ l → w ∈ src) → l.countP (fun w => decide (level w ≤ level v)) ≤
              l.countP (fun v => decide (cdf id (counts src) (level v) ≤ cdf id template k)) + l.countP (fun w => decide (level w = level v)) := by
            intro l
            induction l with
            | nil => intro _; simp
            | cons a l ih =>
              intro hl
              have := ih (fun w hw => hl w (List.mem_cons_of_mem _ hw))
              have ha := hl a List.mem_cons_self
              simp only [List.countP_cons, decide_eq_true_eq]
              by_cases hle : level a ≤ level v
              · rw [if_pos hle]
                by_cases heq : level a = level v
                · rw [if_pos heq]; split <;> omega
                · rw [if_neg heq]
                  have : cdf id (counts src) (level a) ≤ cdf id template k := by
                    by_contra hc
                    have := hmin a ha hc
                    omega
                  rw [if_pos this]; omega
              · rw [if_neg hle]; omega
          exact this src (fun _ h => h)
        have h1 : (cdf id template k) * src.length ≤ (src.filter (fun w => decide (level w ≤ level v))).length := by
          rw [← hS v]
          exact mul_le_mul_of_nonneg_right (not_le.1 hp).le hN.le
        have h2 : ((src.filter (fun w => decide (level w ≤ level v))).length : K) ≤
            (src.filter (fun v => decide (cdf id (counts src) (level v) ≤ cdf id template k))).length + B := by
          have := hB _ (level_le v)
          exact_mod_cast (by omega : (src.filter (fun w => decide (level w ≤ level v))).length ≤ _ + B)
        linarith
      · have : src.filter (fun v => decide (cdf id (counts src) (level v) ≤ cdf id template k)) = src := by
          rw [List.filter_eq_self]
          intro v hv
          simp only [decide_eq_true_eq]
          by_contra hc; exact hA ⟨v, hv, hc⟩
        rw [this]
        have := mul_le_of_le_one_left hN.le hT1
        linarith

/-- **C69**: the result follows the template. For every level `k` the number of result pixels with a value up to `k` never exceeds
the share of the pixels that the template has up to `k`, and falls short of it by at most the largest number `B` of pixels that
have the same integer part. -/
theorem C69_follows_template (src : List K) (template : Nat → K) (hs : ∀ v, v ∈ src → 0 ≤ v ∧ v ≤ 255)
    (ht : ∀ i, i ≤ 255 → 0 ≤ template i) (hpos : 0 < ((List.range 256).map template).sum) (B : Nat)
    (hB : ∀ i : Int, (src.filter (fun v => decide (⌊v⌋ = i))).length ≤ B) (k : Nat) (hk : k ≤ 255) :
    let wanted := ((List.range (k + 1)).map template).sum / ((List.range 256).map template).sum * src.length
    let got := (((matchHistogram id template src).filter (fun r => decide (r ≤ (k : K)))).length : K)
    got ≤ wanted ∧ wanted ≤ got + B := by
  refine follows_template_bins src template (fun v hv => ⟨(hs v hv).1, (hs v hv).2.trans (by norm_num)⟩) ht hpos B ?_ hk
  intro i hi
  refine le_trans (le_of_eq ?_) (hB i)
  congr 1
  refine List.filter_congr (fun v hv => ?_)
  have h255 := (hs v hv).2
  rw [Bool.eq_iff_iff]
  simp only [inBin, Bool.and_eq_true, Bool.or_eq_true, decide_eq_true_eq, Int.floor_eq_iff, Int.cast_natCast]
  constructor
  · rintro ⟨h1, h2 | ⟨rfl, _⟩⟩
    · exact ⟨h1, h2⟩
    · exact ⟨h1, by push_cast; linarith⟩
  · rintro ⟨h1, h2⟩
    exact ⟨h1, Or.inl h2⟩

/-- Four pixels and a template that wants half of them black and half of them white. -/
def demoTemplate : Nat → ℚ := fun i => if i = 0 ∨ i = 255 then 2 else 0

/-- `C59_own_histogram_partial`: four pixels, two of them with the same integer part. -/
example := C59_own_histogram_partial ([10, 30, 21 / 2, 40] : List ℚ) (fun i => if i = 10 then 2 else if i = 30 ∨ i = 40 then 1 else 0) (by decide +kernel)
  (by decide +kernel)
/-- `C59_monotone` with rounding. -/
example := C59_monotone binary32 (fun _ _ h => binary32_mono h) demoTemplate [10, 30, 20, 40] 0 2 10 20 0 0 rfl rfl (by decide +kernel) (by decide +kernel)

example : matchHistogram id demoTemplate [10, 30, 20, 40] = [0, 255, 0, 255] := by decide +kernel
example : matchHistogram binary32 demoTemplate [10, 30, 10, 10] = [255, 255, 255, 255] := by decide +kernel
example : cumsum demoTemplate 255 = 4 := by decide +kernel
example : ∀ i : Int, (([10, 30, 20, 40] : List ℚ).filter (fun v => decide (⌊v⌋ = i))).length ≤ 1 := by
  intro i
  have e : ([10, 30, 20, 40] : List ℚ).filter (fun v => decide (⌊v⌋ = i)) = (([10, 30, 20, 40] : List Int).filter (fun n => decide (n = i))).map (↑) := by
    simp only [List.filter_cons, List.filter_nil]
    have h1 : ⌊(10 : ℚ)⌋ = 10 := by decide +kernel
    have h2 : ⌊(20 : ℚ)⌋ = 20 := by decide +kernel
    have h3 : ⌊(30 : ℚ)⌋ = 30 := by decide +kernel
    have h4 : ⌊(40 : ℚ)⌋ = 40 := by decide +kernel
    rw [h1, h2, h3, h4]
    split_ifs <;> simp
  rw [e, List.length_map]
  simp only [List.filter_cons, List.filter_nil, decide_eq_true_eq]
  split_ifs <;> simp <;> omega

end Verif.Histogram
