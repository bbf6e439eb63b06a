import Verif.Props.Generate
import Verif.Props.Histogram
/-!
# C63, exactly: when masked pixels are black in spite of a template histogram
-/

namespace Verif.Generate
open Verif Histogram
set_option linter.unusedSectionVars false

variable {K : Type*} [Field K] [LinearOrder K] [IsStrictOrderedRing K] [FloorRing K]

private theorem search_zero (t : Nat → K) (q : K) : search t q = 0 ↔ q ≤ t 0 := by
  unfold search
  rw [show (256 : Nat) = 255 + 1 from rfl, List.range_succ_eq_map, List.findIdx_cons]
  by_cases h : q ≤ t 0 <;> simp [h]

private theorem cumsum_zero (h : Nat → K) : cumsum h 0 = h 0 := by simp [cumsum]

/-- **C63, exactly**: with a template histogram the masked pixels of an image are black if and only if the share of the dark pixels (below 1) in the
image before matching is at most the share of black in the template, both as rounded. `plain` is the same image made without template. -/
theorem C63_exactly (fl64 fl32 : K → K) (R : Rand K) (p : Params K) (bounds : Nat × Nat) (flows : List (Adapter.Field2 K)) (resX resY : K)
    (m : Nat → Nat → K) (t : Nat → K) (key : KeyTerm) (hm : ∀ j i, 0 ≤ m j i ∧ m j i ≤ 1)
    (i : Nat) (img plain : Img K)
    (hi : ((generate fl64 fl32 R p bounds flows resX resY (some m) (some t) key).images1[i]? = some img ∧
        (generate fl64 fl32 R p bounds flows resX resY (some m) none key).images1[i]? = some plain) ∨
      ((generate fl64 fl32 R p bounds flows resX resY (some m) (some t) key).images2[i]? = some img ∧
        (generate fl64 fl32 R p bounds flows resX resY (some m) none key).images2[i]? = some plain))
    (y x : Nat) (hy : y < img.H) (hx : x < img.W) (h0 : m y x = 0) :
    img.at_ y x = 0 ↔
      fl32 (((plain.flat.filter (fun v => decide (v < 1))).length : K) / plain.flat.length) ≤ fl32 (t 0 / cumsum t 255) := by
  have hf : ∃ k ps, img = finish fl32 R p bounds (some m) (some t) k ps ∧ plain = finish fl32 R p bounds (some m) none k ps := by
    rcases hi with ⟨h1, h2⟩ | ⟨h1, h2⟩
    · exact ⟨_, _, generate_get.1 h1, generate_get.1 h2⟩
    · exact ⟨_, _, generate_get.2 h1, generate_get.2 h2⟩
  have hrange : ∀ y x, (0 ≤ plain.at_ y x ∧ plain.at_ y x ≤ 255) ∧ (m y x = 0 → plain.at_ y x = 0) := by
    intro y x
    obtain ⟨h1, h2⟩ := C63_pixels_partial fl64 fl32 R p bounds flows resX resY (some m) none key (fun _ e => by cases e; exact hm) i plain
      (hi.imp And.right And.right) y x
    exact ⟨h1, h2 rfl m rfl⟩
  obtain ⟨k, ps, e1, e2⟩ := hf
  have e3 : img = matched fl32 (some t) plain := by rw [e1, e2]; rfl
  have hy' : y < plain.H := by rw [e3] at hy; exact hy
  have hx' : x < plain.W := by rw [e3] at hx; exact hx
  have hs : ∀ v, v ∈ plain.flat → 0 ≤ v ∧ v ≤ 256 := by
    intro v hv
    obtain ⟨n, _, rfl⟩ := List.mem_map.1 hv
    have := (hrange (n / plain.W) (n % plain.W)).1
    exact ⟨this.1, this.2.trans (by norm_num)⟩
  have hv : img.at_ y x = matchPixel fl32 plain.flat t 0 := by
    rw [e3]
    show (matchHistogram fl32 t plain.flat).getD (y * plain.W + x) 0 = _
    unfold matchHistogram
    rw [List.getD_eq_getElem?_getD, List.getElem?_map, flat_get hy' hx', (hrange y x).2 h0]
    rfl
  have hl : level (0 : K) = 0 := by rw [level_eq le_rfl]; simp
  rw [hv]
  unfold matchPixel
  rw [Nat.cast_eq_zero, search_zero, hl]
  unfold cdf
  rw [cumsum_zero, cumsum_zero, cumsum_all hs]
  unfold counts
  have : plain.flat.filter (inBin 0) = plain.flat.filter (fun v => decide (v < 1)) := by
    apply List.filter_congr
    intro v hv
    have := (hs v hv).1
    simp [inBin, this]
  rw [this]

/-- In the example above no pixel of the template is black, so no masked pixel is; with a template in which 5 of 12 are black they are, as many
pixels being dark. -/
example : ((generate id id demoRand demo (10, 10) demoFlows 1 1 (some demoMask) (some (fun i => if i = 0 then 5 else if i = 200 then 7 else 0))
    (.seed 0)).images1.map (fun img => (img.at_ 1 0, img.at_ 2 3))) = [(0, 200), (0, 200)] := by decide +kernel

end Verif.Generate
