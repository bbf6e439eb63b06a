import Verif.Model.MissingHistogram
import Verif.Props.MissingImage
import Verif.Props.Histogram
/-!
# Histogram matching of images with NaN (C183)
-/

namespace Verif.Missing
open Verif Render Generate Histogram

set_option linter.unusedSectionVars false

variable {K : Type*} [Field K] [LinearOrder K] [IsStrictOrderedRing K] [FloorRing K]

theorem countsN_eq (src : List (Option K)) : countsN src = counts (src.filterMap id) := by
  funext i
  unfold countsN counts
  congr 1
  induction src with
  | nil => rfl
  | cons v l ih =>
    cases v with
    | none => simpa [inBinN] using ih
    | some v =>
      rw [List.filterMap_cons_some (f := id) (b := v) rfl, List.filter_cons, List.filter_cons]
      show (if inBin i v = true then _ else _ : List _).length = _
      split <;> simp [ih]

theorem levelN_le (v : Option K) : levelN v ≤ 255 := by
  cases v with
  | none => exact le_refl _
  | some v => exact level_le v

theorem searchN_le (t : Nat → K) (q : Option K) : searchN t q ≤ 255 := by
  cases q with
  | none => exact le_refl _
  | some q => show search t q ≤ 255; unfold search; omega

theorem quantileN_some {fl : K → K} {src : List (Option K)} (hs : ∀ v, some v ∈ src → 0 ≤ v ∧ v ≤ 256) {v : K} (hv : some v ∈ src) (w : Option K) :
    quantileN fl src w = some (cdf fl (counts (src.filterMap id)) (levelN w)) := by
  unfold quantileN
  rw [countsN_eq, if_neg]
  have hs' : ∀ v, v ∈ src.filterMap id → 0 ≤ v ∧ v ≤ 256 := by
    intro v hv
    obtain ⟨o, ho, e⟩ := List.mem_filterMap.1 hv
    exact hs v (by rw [← (show o = some v from e)]; exact ho)
  rw [cumsum_all hs']
  have : v ∈ src.filterMap id := List.mem_filterMap.2 ⟨some v, hv, rfl⟩
  have := List.length_pos_of_mem this
  exact_mod_cast this.ne'

/-- **C183** (partial): the pixels that are numbers are matched to the template as if the others were not there: taken in order, they are the matched image of the numbers alone. For all images with
any number of NaN and otherwise the intensities 0 to 255, all templates and roundings. Missing from the full claim: pixels that are NaN stay NaN (`C183_refuted`). -/
theorem C183_numbers_partial (fl : K → K) (template : Nat → K) (src : List (Option K)) (hs : ∀ v, some v ∈ src → 0 ≤ v ∧ v ≤ 255) :
    (matchN fl template src).length = src.length ∧
    ((src.zip (matchN fl template src)).filterMap (fun q => if q.1.isSome then some q.2 else none)) = (matchHistogram fl template (src.filterMap id)).map some := by
  refine ⟨by simp [matchN], ?_⟩
  have hs' : ∀ v, some v ∈ src → 0 ≤ v ∧ v ≤ 256 := fun v hv => ⟨(hs v hv).1, (hs v hv).2.trans (by norm_num)⟩
  unfold matchN matchHistogram
  have key : ∀ l : List (Option K), (∀ v ∈ l, v ∈ src) →
      ((l.zip (l.map (fun v => some (searchN (cdf fl template) (quantileN fl src v) : K)))).filterMap (fun q => if q.1.isSome then some q.2 else none)) =
        ((l.filterMap id).map (matchPixel fl (src.filterMap id) template)).map some := by
    intro l hl
    induction l with
    | nil => rfl
    | cons v l ih =>
      have ih := ih (fun w hw => hl w (List.mem_cons_of_mem _ hw))
      cases v with
      | none => simpa using ih
      | some v =>
        rw [List.map_cons, List.zip_cons_cons, List.filterMap_cons_some (b := some (searchN (cdf fl template) (quantileN fl src (some v)) : K)) (by simp), ih,
          List.filterMap_cons_some (f := id) (b := v) rfl, List.map_cons, List.map_cons, quantileN_some hs' (hl _ (List.mem_cons_self ..))]
        rfl
  exact key src (fun _ h => h)

/-- **C183 fails, for every image and template**: a pixel that is NaN becomes one of the numbers 0 to 255. If any pixel is a number, it is at least as bright as all of them (for every monotone rounding);
if none is, all are white. -/
theorem C183_refuted (fl : K → K) (hfl : MonotoneRounding fl) (template : Nat → K) (src : List (Option K)) (hs : ∀ v, some v ∈ src → 0 ≤ v ∧ v ≤ 255) (m : Nat)
    (hm : src[m]? = some none) : ∃ n : Nat, n ≤ 255 ∧ (matchN fl template src)[m]? = some (some (n : K)) ∧
      (∀ (k : Nat) (r : K), (matchN fl template src)[k]? = some (some r) → r ≤ n) ∧ ((∀ v ∈ src, v = none) → n = 255) := by
  have hs' : ∀ v, some v ∈ src → 0 ≤ v ∧ v ≤ 256 := fun v hv => ⟨(hs v hv).1, (hs v hv).2.trans (by norm_num)⟩
  refine ⟨searchN (cdf fl template) (quantileN fl src none), searchN_le _ _, ?_, ?_, ?_⟩
  · unfold matchN
    rw [List.getElem?_map, hm]
    rfl
  · intro k r hr
    unfold matchN at hr
    rw [List.getElem?_map] at hr
    obtain ⟨w, hw, e⟩ := Option.map_eq_some_iff.1 hr
    simp only [Option.some.injEq] at e
    rw [← e, Nat.cast_le]
    by_cases hn : ∃ v, some v ∈ src
    · obtain ⟨v, hv⟩ := hn
      rw [quantileN_some hs' hv, quantileN_some hs' hv]
      exact search_mono (cdf_mono hfl (fun i _ => counts_nonneg _ i) (levelN_le w) (le_refl 255))
    · have hw' : w = none := by
        cases w with
        | none => rfl
        | some v => exact absurd ⟨v, List.mem_of_getElem? hw⟩ hn
      rw [hw']
  · intro hall
    have h0 : src.filterMap id = [] := by
      rw [List.filterMap_eq_nil_iff]
      exact fun v hv => hall v hv
    have : quantileN fl src none = none := by
      unfold quantileN
      rw [countsN_eq, h0, if_pos]
      have := cumsum_all (src := ([] : List K)) (by simp)
      rw [this]
      simp
    rw [this]
    rfl

/-- The brightest intensity of a template: there is something at it and nothing above it. -/
def Brightest (template : Nat → K) (n : Nat) : Prop := n ≤ 255 ∧ template n ≠ 0 ∧ ∀ k, n < k → k ≤ 255 → template k = 0

/-- In exact arithmetic, for a template of counts of which some is positive and an image with at least one number: every pixel that is NaN gets the brightest intensity of the template. -/
theorem C183_refuted_brightest (template : Nat → K) (ht : ∀ k, k ≤ 255 → 0 ≤ template k) (b : Nat) (hb : Brightest template b) (src : List (Option K))
    (hs : ∀ v, some v ∈ src → 0 ≤ v ∧ v ≤ 255) (v : K) (hv : some v ∈ src) (m : Nat) (hm : src[m]? = some none) :
    (matchN id template src)[m]? = some (some (b : K)) := by
  have hs' : ∀ v, some v ∈ src → 0 ≤ v ∧ v ≤ 256 := fun v hv => ⟨(hs v hv).1, (hs v hv).2.trans (by norm_num)⟩
  have hs2 : ∀ v, v ∈ src.filterMap id → 0 ≤ v ∧ v ≤ 256 := by
    intro v hv
    obtain ⟨o, ho, e⟩ := List.mem_filterMap.1 hv
    exact hs' v (by rw [← (show o = some v from e)]; exact ho)
  unfold matchN
  rw [List.getElem?_map, hm, Option.map_some, quantileN_some hs' hv]
  have hmem : v ∈ src.filterMap id := List.mem_filterMap.2 ⟨some v, hv, rfl⟩
  have hlen : ((src.filterMap id).length : K) ≠ 0 := by exact_mod_cast (List.length_pos_of_mem hmem).ne'
  have hone : cdf id (counts (src.filterMap id)) (levelN (none : Option K)) = 1 := by
    show cumsum (counts (src.filterMap id)) 255 / cumsum (counts (src.filterMap id)) 255 = 1
    rw [cumsum_all hs2, div_self hlen]
  rw [hone]
  obtain ⟨b1, b2, b3⟩ := hb
  have hall : ∀ k, b ≤ k → k ≤ 255 → cumsum template k = cumsum template b := by
    intro k hk
    induction k, hk using Nat.le_induction with
    | base => intro _; rfl
    | succ k hk ih =>
      intro h
      rw [cumsum_succ, ih (by omega), b3 (k + 1) (by omega) h, add_zero]
  have hpos : 0 < cumsum template b := by
    have h1 : 0 < template b := lt_of_le_of_ne (ht b b1) b2.symm
    cases b with
    | zero => simpa [cumsum] using h1
    | succ b =>
      rw [cumsum_succ]
      exact add_pos_of_nonneg_of_pos (cumsum_nonneg ht (by omega)) h1
  have htot : cumsum template 255 = cumsum template b := hall 255 b1 (le_refl _)
  have hmono : ∀ j k, j ≤ k → k ≤ 255 → cdf id template j ≤ cdf id template k := fun j k h1 h2 => cdf_mono (fun _ _ h => h) ht h1 h2
  congr 2
  show ((search (cdf id template) 1 : Nat) : K) = b
  congr 1
  have hge : ¬ ∃ k, k < b ∧ search (cdf id template) 1 ≤ k := by
    rintro ⟨k, hk, h⟩
    rw [search_le hmono 1 (by omega)] at h
    have h2 : (1 : K) ≤ cumsum template k / cumsum template 255 := h
    rw [htot, le_div_iff₀ hpos, one_mul] at h2
    cases b with
    | zero => omega
    | succ b =>
      have h3 : cumsum template k ≤ cumsum template b := cumsum_mono ht (by omega) (by omega)
      rw [cumsum_succ] at h2
      have h1 : 0 < template (b + 1) := lt_of_le_of_ne (ht _ b1) b2.symm
      exact absurd (h2.trans h3) (not_le.2 (lt_add_of_pos_right _ h1))
  have hle : search (cdf id template) 1 ≤ b := by
    rcases Nat.lt_or_ge b 255 with h | h
    · rw [search_le hmono 1 h]
      show (1 : K) ≤ cumsum template b / cumsum template 255
      rw [htot, div_self hpos.ne']
    · have : search (cdf id template) 1 ≤ 255 := by unfold search; omega
      omega
  by_contra hne
  exact hge ⟨search (cdf id template) 1, by omega, le_refl _⟩

/-! ## The second image of a pair -/

theorem clip_noise (u n a b c v : K) : 0 ≤ addNoise u n a b c v ∧ addNoise u n a b c v ≤ 255 := by
  unfold addNoise
  exact ⟨le_min (le_max_right _ _) (by norm_num), min_le_right _ _⟩

/-- Pixels after the mask are intensities. -/
theorem finish_range (fl32 : K → K) (R : Rand K) (p : Params K) (bounds : Nat × Nat) (mask : Option (Nat → Nat → K)) (hmask : ∀ m, mask = some m → ∀ j i, m j i = 0 ∨ m j i = 1)
    (key : KeyTerm) (ps : List (Particle K)) (j i : Nat) : 0 ≤ (finish fl32 R p bounds mask none key ps).at_ j i ∧ (finish fl32 R p bounds mask none key ps).at_ j i ≤ 255 := by
  unfold finish matched masked noisy
  dsimp only
  cases mask with
  | none => exact clip_noise ..
  | some m =>
    dsimp only
    rcases hmask m rfl j i with h | h
    · rw [h, mul_zero]; exact ⟨le_refl _, by norm_num⟩
    · rw [h, mul_one]; exact clip_noise ..

theorem zip_filter (l : List Nat) (f g : Nat → Option K) (c : Nat → Bool) (hc : ∀ n ∈ l, (f n).isSome = c n) :
    (((l.map f).zip (l.map g)).filterMap (fun q => if q.1.isSome then some q.2 else none)) = (l.filter c).map g := by
  induction l with
  | nil => rfl
  | cons n l ih =>
    have h := hc n (List.mem_cons_self ..)
    have ih := ih (fun k hk => hc k (List.mem_cons_of_mem _ hk))
    rw [List.map_cons, List.map_cons, List.zip_cons_cons, List.filterMap_cons, List.filter_cons]
    dsimp only
    cases hn : c n with
    | true => rw [hn] at h; simp [h, ih]
    | false => rw [hn] at h; simp [h, ih]

theorem filterMap_filter (l : List Nat) (f : Nat → Option K) (g : Nat → K) (c : Nat → Bool) (hc : ∀ n ∈ l, (f n).isSome = c n) (hg : ∀ n ∈ l, ∀ v, f n = some v → v = g n) :
    (l.map f).filterMap id = (l.filter c).map g := by
  induction l with
  | nil => rfl
  | cons n l ih =>
    have h := hc n (List.mem_cons_self ..)
    have ih := ih (fun k hk => hc k (List.mem_cons_of_mem _ hk)) (fun k hk => hg k (List.mem_cons_of_mem _ hk))
    rw [List.map_cons, List.filter_cons]
    cases hf : f n with
    | none =>
      rw [hf] at h
      rw [List.filterMap_cons_none (f := id) rfl, ih, ← h]
      simp
    | some v =>
      rw [hf] at h
      rw [List.filterMap_cons_some (f := id) (b := v) rfl, ih, ← h, hg n (List.mem_cons_self ..) v hf]
      simp

theorem flat_matched (fl32 : K → K) (template : Nat → K) (img : Img (Option K)) : flatN (matchedN fl32 template img) = matchN fl32 template (flatN img) := by
  have hlen : (matchN fl32 template (flatN img)).length = img.H * img.W := by simp [matchN, flatN]
  refine List.ext_getElem? (fun n => ?_)
  show ((List.range (img.H * img.W)).map (fun n => (matchN fl32 template (flatN img)).getD (n / img.W * img.W + n % img.W) (some 0)))[n]? = _
  rw [List.getElem?_map]
  rcases Nat.lt_or_ge n (img.H * img.W) with h | h
  · have : n / img.W * img.W + n % img.W = n := by rw [Nat.mul_comm]; exact Nat.div_add_mod n img.W
    rw [List.getElem?_range h, Option.map_some, this, List.getD_eq_getElem?_getD, List.getElem?_eq_getElem (by rw [hlen]; exact h)]
    rfl
  · rw [List.getElem?_eq_none (by simpa using h), List.getElem?_eq_none (by rw [hlen]; exact h)]
    rfl

open Classical in
/-- **C183** (partial), for image pairs: the second image that is matched to a histogram, although vectors are missing. Take the pixels that no patch of an absent particle covers, in row-major order. They are the
matched image of these pixels of the image without the absent particles. Every other pixel is a number, not NaN, at least as bright as any pixel of the image. -/
theorem C183_pair_partial (fl64 fl32 : K → K) (hfl : MonotoneRounding fl32) (junk : Int) (R : Rand K) (p : Params K) (bounds : Nat × Nat) (flows : List (FieldN K)) (resX resY : K)
    (mask : Option (Nat → Nat → K)) (hmask : ∀ m, mask = some m → ∀ j i, m j i = 0 ∨ m j i = 1) (template : Nat → K) (key : KeyTerm) (i : Nat)
    (flow : FieldN K) (hf : flows[i % flows.length]? = some flow) (hH : 0 < flow.H) (hW : 0 < flow.W) (g : Nat → Nat → K × K) :
    let n := numParticles fl64 bounds p
    let r := patchRadius (maxDiameter p)
    let start := fun k => position1 R bounds key i k
    let lost := fun k => Lost bounds flow (start k).1 (start k).2
    let stop := fun k => Adapter.move bounds (filled g flow) p.dt resX resY (start k).1 (start k).2
    let top := fun k => corner fl32 junk r bounds.1 (MissingNear bounds flow true (start k).1 (start k).2) (stop k).1
    let left := fun k => corner fl32 junk r bounds.2 (MissingNear bounds flow false (start k).1 (start k).2) (stop k).2
    let rest := finish fl32 R p bounds mask none (subkey key i 5)
      (((List.range n).filter (fun k => ¬ lost k)).map (particle2 fl32 R p bounds (filled g flow) resX resY key i))
    let second := (pairHN fl64 fl32 junk R p bounds flows resX resY mask template key i).2
    let covered := fun q : Nat => ∃ k < n, lost k ∧ Covers r bounds.1 bounds.2 (top k) (left k) (q / rest.W + p.imgOffset.1) (q % rest.W + p.imgOffset.2)
    second.H = rest.H ∧ second.W = rest.W ∧
    ((List.range (rest.H * rest.W)).filter (fun q => ¬ covered q)).map (fun q => second.at_ (q / rest.W) (q % rest.W)) =
      (matchHistogram fl32 template (((List.range (rest.H * rest.W)).filter (fun q => ¬ covered q)).map (fun q => rest.at_ (q / rest.W) (q % rest.W)))).map some ∧
    ∀ q < rest.H * rest.W, covered q → ∃ v : Nat, v ≤ 255 ∧ second.at_ (q / rest.W) (q % rest.W) = some (v : K) ∧
      ∀ q' < rest.H * rest.W, ∀ w, second.at_ (q' / rest.W) (q' % rest.W) = some w → w ≤ v := by
  intro n r start lost stop top left rest second covered
  obtain ⟨e1, e2, e3⟩ := C169_second_partial fl64 fl32 junk R p bounds flows resX resY mask key i flow hf hH hW g
  set img := (pairN fl64 fl32 junk R p bounds flows resX resY mask key i).2 with himg
  have e1 : img.H = rest.H := e1
  have e2 : img.W = rest.W := e2
  have hsecond : second = matchedN fl32 template img := rfl
  have h1 : second.H = rest.H := e1
  have h2 : second.W = rest.W := e2
  have hflat : flatN second = matchN fl32 template (flatN img) := flat_matched fl32 template img
  have hcov : ∀ q ∈ List.range (rest.H * rest.W), (img.at_ (q / rest.W) (q % rest.W)).isSome = decide (¬ covered q) := by
    intro q _
    have h := (e3 (q / rest.W) (q % rest.W)).1
    cases hv : img.at_ (q / rest.W) (q % rest.W) with
    | none => have := h.1 hv; simpa using this
    | some v =>
      have : ¬ covered q := fun hc => by have := h.2 hc; rw [hv] at this; cases this
      simpa using this
  have hval : ∀ q ∈ List.range (rest.H * rest.W), ∀ v, img.at_ (q / rest.W) (q % rest.W) = some v → v = rest.at_ (q / rest.W) (q % rest.W) :=
    fun q _ v hv => (e3 (q / rest.W) (q % rest.W)).2 v hv
  have himgflat : flatN img = (List.range (rest.H * rest.W)).map (fun q => img.at_ (q / rest.W) (q % rest.W)) := by
    unfold flatN; rw [e1, e2]
  have hsecflat : flatN second = (List.range (rest.H * rest.W)).map (fun q => second.at_ (q / rest.W) (q % rest.W)) := by
    unfold flatN; rw [h1, h2]
  have hrange : ∀ v, some v ∈ flatN img → 0 ≤ v ∧ v ≤ 255 := by
    intro v hv
    rw [himgflat] at hv
    obtain ⟨q, hq, e⟩ := List.mem_map.1 hv
    rw [hval q hq v e]
    exact finish_range fl32 R p bounds mask hmask _ _ _ _
  refine ⟨h1, h2, ?_, ?_⟩
  · have := (C183_numbers_partial fl32 template (flatN img) hrange).2
    rw [← hflat, hsecflat, himgflat, zip_filter _ _ _ _ hcov, filterMap_filter _ _ _ _ hcov hval] at this
    exact this
  · intro q hq hc
    have hnone : (flatN img)[q]? = some none := by
      rw [himgflat, List.getElem?_map, List.getElem?_range hq]
      have := (e3 (q / rest.W) (q % rest.W)).1.2 hc
      simpa using this
    obtain ⟨v, hv1, hv2, hv3, _⟩ := C183_refuted fl32 hfl template (flatN img) hrange q hnone
    rw [← hflat, hsecflat] at hv2 hv3
    refine ⟨v, hv1, ?_, ?_⟩
    · rw [List.getElem?_map, List.getElem?_range hq] at hv2
      simpa using hv2
    · intro q' hq' w hw
      refine hv3 q' w ?_
      rw [List.getElem?_map, List.getElem?_range hq', Option.map_some, hw]

/-- **C183**, first image: it is the one of the flow field with any values filled in, matched to the histogram. -/
theorem C183_first (fl64 fl32 : K → K) (junk : Int) (R : Rand K) (p : Params K) (bounds : Nat × Nat) (flows : List (FieldN K)) (resX resY : K)
    (mask : Option (Nat → Nat → K)) (template : Nat → K) (key : KeyTerm) (i : Nat) (g : Nat → Nat → K × K) :
    (pairHN fl64 fl32 junk R p bounds flows resX resY mask template key i).1 =
      (pair fl64 fl32 R p bounds (flows.map (filled g)) resX resY mask (some template) key i).1 := rfl

/-! ## Examples -/

/-- Three pixels of which one is NaN: the two numbers take the intensities 10 and 30 of the template, and so does NaN the latter. -/
example : matchN id (fun k => if k = 10 then 2 else if k = 30 then 1 else 0 : Nat → ℚ) [some 5, none, some 7] = [some 10, some 30, some 30] ∧
    matchHistogram id (fun k => if k = 10 then 2 else if k = 30 then 1 else 0 : Nat → ℚ) [5, 7] = [10, 30] := by decide +kernel

example : Brightest (fun k => if k = 10 then 2 else if k = 30 then 1 else 0 : Nat → ℚ) 30 := by
  refine ⟨by norm_num, by norm_num, fun k h1 h2 => ?_⟩
  beta_reduce
  rw [if_neg (by omega), if_neg (by omega)]

/-- The image of `C169_refuted` with a histogram: a pixel of the patch of a particle that is not even shown is the brightest of the image, below a mask of zeros. -/
example : ((pairHN id id 0 halves hiddenParams (4, 4) [unknown] 1 1 (some fun _ _ => 0) (fun k => if k = 10 then 15 else if k = 30 then 1 else 0) (.seed 0) 0).2.at_ 0 0,
    (pairHN id id 0 halves hiddenParams (4, 4) [unknown] 1 1 (some fun _ _ => 0) (fun k => if k = 10 then 15 else if k = 30 then 1 else 0) (.seed 0) 0).2.at_ 3 3) =
      ((some 30, some 30) : Option ℚ × Option ℚ) := by decide +kernel

end Verif.Missing
