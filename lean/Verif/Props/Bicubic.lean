import Verif.Proofs.Bicubic
import Verif.Model.Formats
/-!
# C198: what resizing does to an image of a MAT file

The resampling is Pillow's default filter (`Model/Bicubic.lean`, exact arithmetic): 8-bit images with `store8`, floating-point images with `id`.
-/

namespace Verif.Bicubic
open Verif

/-! ## Specification -/

/-- The file `p` can be read, and stores a two-dimensional image under `key`, with at least one pixel. -/
def HasImage (io : Formats.MatIO) (p key : String) (img : Arr ℚ) : Prop :=
  (∃ data, Formats.matRead io p = .ok data ∧ data.lookup key = some img) ∧ img.WF ∧ ∃ h w, img.shape = [h, w] ∧ 0 < h ∧ 0 < w

/-- Loading `p` gives a sample with the image `j`, as the first one for the key `I0`, as the second one for the key `I1`. -/
def LoadsImage (io : Formats.MatIO) (c : Formats.MatCfg) (p key : String) (j : Arr ℚ) : Prop :=
  ∃ s, Formats.matLoad io c p = .ok s ∧ ((key = "I0" ∧ s.images1 = some j) ∨ (key = "I1" ∧ s.images2 = some j))

/-- What an 8-bit pixel can be. -/
def Is8bit (v : ℚ) : Prop := ∃ n : Nat, n ≤ 255 ∧ v = n

/-! ## Proofs -/

theorem loaded_image {io : Formats.MatIO} {c : Formats.MatCfg} {p key : String} {img j : Arr ℚ} (hi : HasImage io p key img) (hl : LoadsImage io c p key j) :
    Formats.matImage io c img = .ok j := by
  obtain ⟨⟨data, hd, hk⟩, -, -⟩ := hi
  obtain ⟨s, hs, hj⟩ := hl
  unfold Formats.matLoad at hs
  rw [hd] at hs
  dsimp only at hs
  split at hs
  · cases hs
  · split at hs
    · split at hs
      · rename_i i0 i1 e0 e1
        split at hs
        · rename_i j0 j1 m0 m1
          split at hs
          · cases hs
            rcases hj with ⟨rfl, h⟩ | ⟨rfl, h⟩
            · cases h
              rw [hk] at e0
              cases e0
              exact m0
            · cases h
              rw [hk] at e1
              cases e1
              exact m1
          · cases hs
        · cases hs
        · cases hs
      · cases hs
    · split at hs
      · cases hs
        rcases hj with ⟨-, h⟩ | ⟨-, h⟩ <;> cases h
      · cases hs

/-- Every pixel of the loaded image is one of the file, or comes out of a resampling pass. -/
private theorem pixels {store : ℚ → ℚ} {io : Formats.MatIO} {c : Formats.MatCfg} {p key : String} {img j : Arr ℚ} (hio : io.resizeImage = resize store)
    (hH : 0 < c.height) (hW : 0 < c.width) (hi : HasImage io p key img) (hl : LoadsImage io c p key j) :
    ∀ v ∈ j.data, v ∈ img.data ∨ ∃ h w y x, 0 < h ∧ 0 < w ∧ img.shape = [h, w] ∧ y < c.width ∧ x < c.height ∧
      v = pass store h c.width (fun r => pass store w c.height (fun i => img.data.getD (r * w + i) 0) x) y := by
  have hm := loaded_image hi hl
  obtain ⟨-, -, h, w, hs, hh, hw⟩ := hi
  unfold Formats.matImage at hm
  rw [hio] at hm
  split at hm
  · obtain ⟨r, hr, -, -, -, hmem⟩ := resize_ok store hs hH hW
    rw [hr] at hm
    cases hm
    intro v hv
    obtain ⟨y, x, hy, hx, e⟩ := hmem v hv
    exact .inr ⟨h, w, y, x, hh, hw, hs, hy, hx, e⟩
  · cases hm
    exact fun v hv => .inl hv

private theorem blank {store : ℚ → ℚ} {io : Formats.MatIO} {c : Formats.MatCfg} {p key : String} {img j : Arr ℚ} (hio : io.resizeImage = resize store)
    (hH : 0 < c.height) (hW : 0 < c.width) (hi : HasImage io p key img) (hl : LoadsImage io c p key j) {v : ℚ} (hv : ∀ q ∈ img.data, q = v) (hst : store v = v) :
    ∀ q ∈ j.data, q = v := by
  intro q hq
  rcases pixels hio hH hW hi hl q hq with h | ⟨h, w, y, x, hh, hw, hs, hy, hx, e⟩
  · exact hv q h
  · rw [e, pass_const store hh hy (v := v), hst]
    intro r hr
    rw [pass_const store hw hx (v := v), hst]
    intro i hi'
    exact hv _ (data_mem hs hi.2.1 hr hi')

private theorem store8_is (q : ℚ) : Is8bit (store8 q) := by
  unfold store8
  rcases le_or_gt ⌊q + 1 / 2⌋ 0 with h | h
  · refine ⟨0, by omega, ?_⟩
    have h' : (⌊q + 1 / 2⌋ : ℚ) ≤ 0 := by exact_mod_cast h
    rw [max_eq_left h', min_eq_right (by norm_num)]
    rfl
  · have h' : (0 : ℚ) ≤ (⌊q + 1 / 2⌋ : ℚ) := by exact_mod_cast h.le
    rw [max_eq_right h']
    rcases le_or_gt ⌊q + 1 / 2⌋ 255 with h2 | h2
    · refine ⟨⌊q + 1 / 2⌋.toNat, by omega, ?_⟩
      have h2' : (⌊q + 1 / 2⌋ : ℚ) ≤ 255 := by exact_mod_cast h2
      rw [min_eq_right h2']
      have : ((⌊q + 1 / 2⌋.toNat : Int) : ℚ) = (⌊q + 1 / 2⌋ : ℚ) := by rw [Int.toNat_of_nonneg h.le]
      rw [← this]
      rfl
    · refine ⟨255, le_refl _, ?_⟩
      have h2' : (255 : ℚ) ≤ (⌊q + 1 / 2⌋ : ℚ) := by exact_mod_cast h2.le
      rw [min_eq_left h2']
      rfl

private theorem store8_of {v : ℚ} (h : Is8bit v) : store8 v = v := by
  obtain ⟨n, hn, rfl⟩ := h
  unfold store8
  have : ⌊(n : ℚ) + 1 / 2⌋ = n := by
    rw [Int.floor_eq_iff]
    push_cast
    constructor <;> linarith
  rw [this]
  push_cast
  have h1 : (0 : ℚ) ≤ n := by positivity
  have h2 : (n : ℚ) ≤ 255 := by exact_mod_cast hn
  rw [max_eq_right h1, min_eq_right h2]

/-! ## C198 -/

/-- **C198 (part).** A uniform floating-point image stays uniform, with the same value, whatever its size and the requested one. -/
theorem C198_uniform {io : Formats.MatIO} {c : Formats.MatCfg} {p key : String} {img j : Arr ℚ} (hio : io.resizeImage = resize id)
    (hH : 0 < c.height) (hW : 0 < c.width) (hi : HasImage io p key img) (hl : LoadsImage io c p key j) {v : ℚ} (hv : ∀ q ∈ img.data, q = v) :
    ∀ q ∈ j.data, q = v := blank hio hH hW hi hl hv rfl

/-- **C198 (part).** So does a uniform 8-bit image. -/
theorem C198_uniform8 {io : Formats.MatIO} {c : Formats.MatCfg} {p key : String} {img j : Arr ℚ} (hio : io.resizeImage = resize store8)
    (hH : 0 < c.height) (hW : 0 < c.width) (hi : HasImage io p key img) (hl : LoadsImage io c p key j) {v : ℚ} (h8 : Is8bit v) (hv : ∀ q ∈ img.data, q = v) :
    ∀ q ∈ j.data, q = v := blank hio hH hW hi hl hv (store8_of h8)

/-- **C198 (part).** The pixels of an 8-bit image are loaded as 8-bit pixels: whole numbers from 0 to 255. -/
theorem C198_range_partial {io : Formats.MatIO} {c : Formats.MatCfg} {p key : String} {img j : Arr ℚ} (hio : io.resizeImage = resize store8)
    (hH : 0 < c.height) (hW : 0 < c.width) (hi : HasImage io p key img) (hl : LoadsImage io c p key j) (h8 : ∀ q ∈ img.data, Is8bit q) :
    ∀ q ∈ j.data, Is8bit q := by
  intro q hq
  rcases pixels hio hH hW hi hl q hq with h | ⟨h, w, y, x, -, -, -, -, -, e⟩
  · exact h8 q h
  · rw [e]
    unfold pass
    exact store8_is _

/-! ### The code disagrees: pixels outside the range of the image -/

/-- Two rows of four pixels: three dark ones, a bright one. -/
def edge (lo hi : ℚ) : Arr ℚ := ⟨[2, 4], [lo, lo, lo, hi, lo, lo, lo, hi]⟩

/-- A file with this image twice and a flow of 2 x 2. -/
def edgeIO (store : ℚ → ℚ) (lo hi : ℚ) : Formats.MatIO :=
  ⟨fun _ => .ok [("V", ⟨[2, 2, 2], [0, 0, 0, 0, 0, 0, 0, 0]⟩), ("I0", edge lo hi), ("I1", edge lo hi)], fun _ => false, fun _ => .error .valueError,
    resize store, fun a _ _ => .ok a⟩

theorem edge_has (store : ℚ → ℚ) (lo hi : ℚ) : HasImage (edgeIO store lo hi) "a" "I0" (edge lo hi) :=
  ⟨⟨_, rfl, rfl⟩, rfl, 2, 4, rfl, by omega, by omega⟩

private theorem edge_loads (store : ℚ → ℚ) (lo hi : ℚ) : ∃ j, LoadsImage (edgeIO store lo hi) ⟨true, 2, 2⟩ "a" "I0" j ∧
    j.at? [0, 0] = some (pass store 2 2 (fun r => pass store 4 2 (fun i => (edge lo hi).data.getD (r * 4 + i) 0) 0) 0) := by
  obtain ⟨r, hr, -, -, hat, -⟩ := resize_ok store (a := edge lo hi) (h0 := 2) (w0 := 4) (w := 2) (h := 2) rfl (by omega) (by omega)
  refine ⟨r, ⟨⟨⟨[2, 2, 2], [0, 0, 0, 0, 0, 0, 0, 0]⟩, some r, some r, some ["a"]⟩, ?_, .inl ⟨rfl, rfl⟩⟩, hat 0 0 (by omega) (by omega)⟩
  · have hm : Formats.matImage (edgeIO store lo hi) ⟨true, 2, 2⟩ (edge lo hi) = .ok r := hr
    have hf : Formats.matFlow (edgeIO store lo hi) ⟨true, 2, 2⟩ ⟨[2, 2, 2], [0, 0, 0, 0, 0, 0, 0, 0]⟩ = .ok ⟨[2, 2, 2], [0, 0, 0, 0, 0, 0, 0, 0]⟩ := by rfl
    have hr' : Formats.matRead (edgeIO store lo hi) "a" =
        .ok [("V", ⟨[2, 2, 2], [0, 0, 0, 0, 0, 0, 0, 0]⟩), ("I0", edge lo hi), ("I1", edge lo hi)] := rfl
    have l0 : List.lookup "V" [("V", (⟨[2, 2, 2], [0, 0, 0, 0, 0, 0, 0, 0]⟩ : Arr ℚ)), ("I0", edge lo hi), ("I1", edge lo hi)] = some ⟨[2, 2, 2], [0, 0, 0, 0, 0, 0, 0, 0]⟩ := rfl
    have l1 : List.lookup "I0" [("V", (⟨[2, 2, 2], [0, 0, 0, 0, 0, 0, 0, 0]⟩ : Arr ℚ)), ("I0", edge lo hi), ("I1", edge lo hi)] = some (edge lo hi) := rfl
    have l2 : List.lookup "I1" [("V", (⟨[2, 2, 2], [0, 0, 0, 0, 0, 0, 0, 0]⟩ : Arr ℚ)), ("I0", edge lo hi), ("I1", edge lo hi)] = some (edge lo hi) := rfl
    simp only [Formats.matLoad, hr', l0, l1, l2, hm, hf, if_true]

private theorem pass42 (store : ℚ → ℚ) (f : Nat → ℚ) : pass store 4 2 f 0 = store ((111 * f 0 + 111 * f 1 + 29 * f 2 - 9 * f 3) / 242) := by
  have w0 : weight 4 2 0 0 = 111 / 128 := by norm_num [weight, cubic, Pillow.center, Pillow.filterScale, abs_of_neg, abs_of_pos]
  have w1 : weight 4 2 0 1 = 111 / 128 := by norm_num [weight, cubic, Pillow.center, Pillow.filterScale, abs_of_neg, abs_of_pos]
  have w2 : weight 4 2 0 2 = 29 / 128 := by norm_num [weight, cubic, Pillow.center, Pillow.filterScale, abs_of_neg, abs_of_pos]
  have w3 : weight 4 2 0 3 = -9 / 128 := by norm_num [weight, cubic, Pillow.center, Pillow.filterScale, abs_of_neg, abs_of_pos]
  have ht : total 4 2 0 = 242 / 128 := by
    rw [total_eq]
    simp only [Finset.sum_range_succ, Finset.sum_range_zero, w0, w1, w2, w3]
    norm_num
  rw [pass_sum store (by rw [ht]; norm_num)]
  simp only [Finset.sum_range_succ, Finset.sum_range_zero, w0, w1, w2, w3, ht]
  congr 1
  ring

private theorem edge_value (store : ℚ → ℚ) (lo hi : ℚ) : pass store 2 2 (fun r => pass store 4 2 (fun i => (edge lo hi).data.getD (r * 4 + i) 0) 0) 0 =
    store (store (lo - 9 / 242 * (hi - lo))) := by
  refine pass_const store (by omega) (by omega) ?_
  intro r hr
  rw [pass42]
  have : r = 0 ∨ r = 1 := by omega
  rcases this with rfl | rfl
  · show store ((111 * lo + 111 * lo + 29 * lo - 9 * hi) / 242) = _
    congr 1
    ring
  · show store ((111 * lo + 111 * lo + 29 * lo - 9 * hi) / 242) = _
    congr 1
    ring

/-- **C198 (the code disagrees).** For any two grey values there is a floating-point image with these two only that is loaded with a pixel darker than both. -/
theorem C198_refuted (lo hi : ℚ) (h : lo < hi) : ∃ (io : Formats.MatIO) (c : Formats.MatCfg) (img j : Arr ℚ) (q : ℚ), io.resizeImage = resize id ∧
    HasImage io "a" "I0" img ∧ (∀ v ∈ img.data, v = lo ∨ v = hi) ∧ LoadsImage io c "a" "I0" j ∧ j.at? [0, 0] = some q ∧ q < lo := by
  obtain ⟨j, hj, hat⟩ := edge_loads id lo hi
  refine ⟨_, _, edge lo hi, j, _, rfl, edge_has id lo hi, ?_, hj, hat, ?_⟩
  · intro v hv
    simp only [edge, List.mem_cons, List.not_mem_nil, or_false] at hv
    tauto
  · rw [edge_value]
    show lo - 9 / 242 * (hi - lo) < lo
    linarith

/-- **C198 (the code disagrees).** Likewise with 8 bits: of an image with grey values 100 and 200, a pixel is loaded as 96. -/
theorem C198_refuted8 : ∃ (io : Formats.MatIO) (c : Formats.MatCfg) (img j : Arr ℚ), io.resizeImage = resize store8 ∧
    HasImage io "a" "I0" img ∧ (∀ v ∈ img.data, v = 100 ∨ v = 200) ∧ LoadsImage io c "a" "I0" j ∧ j.at? [0, 0] = some 96 := by
  obtain ⟨j, hj, hat⟩ := edge_loads store8 100 200
  refine ⟨_, _, edge 100 200, j, rfl, edge_has store8 100 200, ?_, hj, ?_⟩
  · intro v hv
    simp only [edge, List.mem_cons, List.not_mem_nil, or_false] at hv
    tauto
  · rw [hat, edge_value]
    have : store8 (100 - 9 / 242 * (200 - 100)) = 96 := by
      have hfl : ⌊(100 - 9 / 242 * (200 - 100) : ℚ) + 1 / 2⌋ = 96 := by rw [Int.floor_eq_iff]; norm_num
      unfold store8
      rw [hfl]
      norm_num
    rw [this, store8_of ⟨96, by omega, by norm_num⟩]

/-! ## Examples -/

/-- A uniform image of 2 x 4 that is loaded at 2 x 2, with 8 bits and in floating point. -/
example : (HasImage (edgeIO store8 7 7) "a" "I0" (edge 7 7) ∧ (∀ q ∈ (edge 7 7).data, q = 7 ∧ Is8bit q) ∧ ∃ j, LoadsImage (edgeIO store8 7 7) ⟨true, 2, 2⟩ "a" "I0" j) ∧
    HasImage (edgeIO id 7 7) "a" "I0" (edge 7 7) ∧ ∃ j, LoadsImage (edgeIO id 7 7) ⟨true, 2, 2⟩ "a" "I0" j := by
  refine ⟨⟨edge_has _ _ _, ?_, (edge_loads _ _ _).imp fun _ h => h.1⟩, edge_has _ _ _, (edge_loads _ _ _).imp fun _ h => h.1⟩
  intro q hq
  have : q = 7 := by
    simp only [edge, List.mem_cons, List.not_mem_nil, or_false] at hq
    tauto
  exact ⟨this, 7, by omega, by rw [this]; norm_num⟩

end Verif.Bicubic
