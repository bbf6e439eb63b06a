import Verif.Model.Generate
import Verif.Proofs.Render
import Verif.Proofs.Adapter
import Verif.Proofs.Histogram
/-!
# Auxiliary facts about the generation of image pairs
-/

namespace Verif.Generate
open Verif Render

set_option linter.unusedSectionVars false

variable {K : Type*} [Field K] [LinearOrder K] [IsStrictOrderedRing K] [FloorRing K]

theorem between_mem {lo hi u : K} (h : lo ≤ hi) (h1 : u ≤ 1) : lo ≤ between lo hi u ∧ between lo hi u ≤ hi := by
  unfold between
  refine ⟨le_max_left _ _, max_le h ?_⟩
  have : u * (hi - lo) ≤ 1 * (hi - lo) := mul_le_mul_of_nonneg_right h1 (by linarith)
  linarith

theorem clip_mem {v lo hi : K} (h : lo ≤ hi) : lo ≤ clip v lo hi ∧ clip v lo hi ≤ hi := by
  unfold clip
  exact ⟨le_min (le_max_right _ _) h, min_le_right _ _⟩

theorem clip_of_mem {v lo hi : K} (h0 : lo ≤ v) (h1 : v ≤ hi) : clip v lo hi = v := by
  unfold clip
  rw [max_eq_left h0, min_eq_left h1]

theorem row_mem {l : List (K × K)} (h : l ≠ []) (n : Nat) : row l n ∈ l := by
  have hl : 0 < l.length := List.length_pos_iff.2 h
  have hb : min n (l.length - 1) < l.length := by omega
  unfold row
  rw [List.getD_eq_getElem?_getD, List.getElem?_eq_getElem hb, Option.getD_some]
  exact List.getElem_mem hb

theorem row_ordered {l : List (K × K)} (h : ∀ q, q ∈ l → q.1 ≤ q.2) (n : Nat) : (row l n).1 ≤ (row l n).2 := by
  by_cases hl : l = []
  · subst hl; simp [row]
  · exact h _ (row_mem hl n)

theorem addNoise_mem (u n nu mean std v : K) : 0 ≤ addNoise u n nu mean std v ∧ addNoise u n nu mean std v ≤ 255 := by
  unfold addNoise
  exact ⟨le_min (le_max_right _ _) (by norm_num), min_le_right _ _⟩

theorem addNoise_quiet (u n v : K) : addNoise u n 0 0 0 v = min (max v 0) 255 := by
  unfold addNoise
  simp

theorem flat_length (img : Img K) : img.flat.length = img.H * img.W := by simp [Img.flat]

theorem flat_get {img : Img K} {j i : Nat} (hj : j < img.H) (hi : i < img.W) :
    img.flat[j * img.W + i]? = some (img.at_ j i) := by
  have hlt : j * img.W + i < img.H * img.W := by
    have : (j + 1) * img.W ≤ img.H * img.W := Nat.mul_le_mul_right _ hj
    rw [Nat.add_mul, Nat.one_mul] at this
    omega
  unfold Img.flat
  rw [List.getElem?_map, List.getElem?_range hlt, Option.map_some]
  have h1 : (j * img.W + i) / img.W = j := by
    rw [Nat.mul_comm, Nat.mul_add_div (by omega), Nat.div_eq_of_lt hi, Nat.add_zero]
  have h2 : (j * img.W + i) % img.W = i := by
    rw [Nat.mul_comm, Nat.mul_add_mod, Nat.mod_eq_of_lt hi]
  rw [h1, h2]

theorem finish_size (fl32 : K → K) (R : Rand K) (p : Params K) (bounds : Nat × Nat) (mask : Option (Nat → Nat → K))
    (histogram : Option (Nat → K)) (key : KeyTerm) (ps : List (Particle K)) :
    (finish fl32 R p bounds mask histogram key ps).H = sliceLen bounds.1 p.imgOffset.1 p.imageShape.1 ∧
    (finish fl32 R p bounds mask histogram key ps).W = sliceLen bounds.2 p.imgOffset.2 p.imageShape.2 := by
  unfold finish matched masked
  cases mask <;> cases histogram <;> exact ⟨rfl, rfl⟩

theorem finish_plain (fl32 : K → K) (R : Rand K) (p : Params K) (bounds : Nat × Nat) (mask : Option (Nat → Nat → K))
    (key : KeyTerm) (ps : List (Particle K)) (j i : Nat) :
    ∃ u n : K, (finish fl32 R p bounds mask none key ps).at_ j i =
      addNoise u n p.noiseUniform p.noiseMean p.noiseStd
        (render R.exp fl32 (patchRadius (maxDiameter p)) bounds.1 bounds.2 ps (j + p.imgOffset.1) (i + p.imgOffset.2)) *
      (match mask with | none => 1 | some m => m j i) := by
  unfold finish matched masked noisy crop imgGen
  cases mask with
  | none => exact ⟨_, _, by simp only [mul_one]; rfl⟩
  | some m => exact ⟨_, _, rfl⟩

theorem matchHistogram_mem (fl : K → K) (t : Nat → K) (l : List K) (n : Nat) :
    0 ≤ (Histogram.matchHistogram fl t l).getD n 0 ∧ (Histogram.matchHistogram fl t l).getD n 0 ≤ 255 := by
  unfold Histogram.matchHistogram
  rw [List.getD_eq_getElem?_getD, List.getElem?_map]
  cases l[n]? with
  | none => simp
  | some v =>
    simp only [Option.map_some, Option.getD_some, Histogram.matchPixel]
    refine ⟨Nat.cast_nonneg _, ?_⟩
    have : Histogram.search (Histogram.cdf fl t) (Histogram.cdf fl (Histogram.counts l) (Histogram.level v)) ≤ 255 := by
      unfold Histogram.search; exact Nat.min_le_right _ _
    exact_mod_cast this

/-- Every pixel value of a finished image is in the range of intensities. -/
theorem finish_mem (fl32 : K → K) (R : Rand K) (p : Params K) (bounds : Nat × Nat) (mask : Option (Nat → Nat → K))
    (histogram : Option (Nat → K)) (key : KeyTerm) (ps : List (Particle K)) (hm : ∀ m, mask = some m → ∀ j i, 0 ≤ m j i ∧ m j i ≤ 1)
    (j i : Nat) :
    0 ≤ (finish fl32 R p bounds mask histogram key ps).at_ j i ∧ (finish fl32 R p bounds mask histogram key ps).at_ j i ≤ 255 := by
  cases histogram with
  | none =>
    obtain ⟨u, n, h⟩ := finish_plain fl32 R p bounds mask key ps j i
    rw [h]
    obtain ⟨h0, h1⟩ := addNoise_mem u n p.noiseUniform p.noiseMean p.noiseStd
      (render R.exp fl32 (patchRadius (maxDiameter p)) bounds.1 bounds.2 ps (j + p.imgOffset.1) (i + p.imgOffset.2))
    cases mask with
    | none => simp only [mul_one]; exact ⟨h0, h1⟩
    | some m =>
      obtain ⟨m0, m1⟩ := hm m rfl j i
      refine ⟨mul_nonneg h0 m0, ?_⟩
      exact (mul_le_of_le_one_right h0 m1).trans h1
  | some t =>
    unfold finish matched
    exact matchHistogram_mem _ _ _ _

theorem count_lt (n : Nat) (c : Int) (h0 : 0 ≤ c) (hc : c ≤ n) :
    (((List.range n).filter (fun k : Nat => decide ((k : Int) < c))).length : Int) = c := by
  have : (fun k : Nat => decide ((k : Int) < c)) = fun k => decide (k < c.toNat) := by
    funext k
    have : ((k : Int) < c) ↔ k < c.toNat := by omega
    simp only [this]
  rw [this, Histogram.length_filter_lt]
  omega

theorem density_mem (R : Rand K) (p : Params K) (key : KeyTerm) (i : Nat) (hR : ∀ k n, 0 ≤ R.uniform k n ∧ R.uniform k n < 1)
    (h0 : 0 ≤ p.densityRange.1) (h1 : p.densityRange.1 ≤ p.densityRange.2) :
    p.densityRange.1 ≤ density id R p key i ∧ density id R p key i ≤ p.densityRange.2 := by
  unfold density
  simp only [id]
  obtain ⟨a, b⟩ := between_mem h1 (hR (.sub key 2 1) i).2.le
  rw [clip_of_mem (h0.trans a) b]
  exact ⟨a, b⟩

end Verif.Generate
