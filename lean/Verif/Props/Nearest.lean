import Verif.Model.Nearest
import Verif.Props.BicubicSymmetry
/-!
# C198: images with 16 bits

Pillow resizes them by taking the nearest pixel (`Model/Nearest.lean`).
-/

namespace Verif.Nearest
open Verif Bicubic

private theorem source_lt {n m i : Nat} (hn : 0 < n) (hi : i < m) : source n m i < n := by
  unfold source
  have hm : (0 : ℚ) < m := by exact_mod_cast (show 0 < m by omega)
  have hnq : (0 : ℚ) < n := by exact_mod_cast hn
  have hiq : ((i : ℚ) + 1) ≤ m := by exact_mod_cast hi
  have hi0 : (0 : ℚ) ≤ i := by positivity
  have h1 : Pillow.center n m i < n := by
    unfold Pillow.center
    rw [← mul_div_assoc, div_lt_iff₀ hm]
    nlinarith
  have h2 : ⌊Pillow.center n m i⌋ < (n : Int) := Int.floor_lt.2 (by exact_mod_cast h1)
  omega

private theorem resize_ok {a : Arr ℚ} {h0 w0 w h : Nat} (hs : a.shape = [h0, w0]) (hw : 0 < w) (hh : 0 < h) :
    ∃ r, resize a w h = .ok r ∧ r.shape = [h, w] ∧ ∀ v ∈ r.data, ∃ y x, y < h ∧ x < w ∧ v = a.data.getD (source h0 h y * w0 + source w0 w x) 0 :=
  ⟨_, by simp only [resize, hs]; rw [if_neg (by omega)], rfl, fun _ hv => mem_build2 hv⟩

/-- **C198 (part).** The grey values of an image with 16 bits are kept: every pixel of the loaded image is one of the file. -/
theorem C198_values16 {io : Formats.MatIO} {c : Formats.MatCfg} {p key : String} {img j : Arr ℚ} (hio : io.resizeImage = resize)
    (hH : 0 < c.height) (hW : 0 < c.width) (hi : HasImage io p key img) (hl : LoadsImage io c p key j) : ∀ q ∈ j.data, q ∈ img.data := by
  have hm := loaded_image hi hl
  obtain ⟨-, hwf, h, w, hs, hh, hw⟩ := hi
  unfold Formats.matImage at hm
  rw [hio] at hm
  split at hm
  · obtain ⟨r, hr, -, hmem⟩ := resize_ok hs hH hW
    rw [hr] at hm
    cases hm
    intro v hv
    obtain ⟨y, x, hy, hx, rfl⟩ := hmem v hv
    exact data_mem hs hwf (source_lt hh hy) (source_lt hw hx)
  · cases hm
    exact fun v hv => hv

/-- Two files: an image with a bright column at the right, and its mirror image. -/
def edgeIO16 (lo hi : ℚ) : Formats.MatIO :=
  ⟨fun p =>
      let img := if p = "a" then edge lo hi else ⟨[2, 4], [hi, lo, lo, lo, hi, lo, lo, lo]⟩
      .ok [("V", ⟨[2, 2, 2], [0, 0, 0, 0, 0, 0, 0, 0]⟩), ("I0", img), ("I1", img)],
    fun _ => false, fun _ => .error .valueError, resize, fun a _ _ => .ok a⟩

/-- **C198 (the code disagrees).** With 16 bits, the mirror image of an image is not loaded as its mirror image: for any two grey values there is an image whose bright pixels are loaded, while
those of its mirror image are lost. -/
theorem C198_refuted16 (lo hi : ℚ) (hne : lo ≠ hi) : ∃ (io : Formats.MatIO) (c : Formats.MatCfg) (a b ja jb : Arr ℚ), io.resizeImage = resize ∧ 0 < c.height ∧ 0 < c.width ∧
    HasImage io "a" "I0" a ∧ HasImage io "b" "I0" b ∧ Mirrored false true a b ∧ LoadsImage io c "a" "I0" ja ∧ LoadsImage io c "b" "I0" jb ∧
    hi ∈ ja.data ∧ hi ∉ jb.data := by
  have s0 : source 4 2 0 = 1 := by
    have : ⌊Pillow.center 4 2 0⌋ = 1 := by rw [Int.floor_eq_iff]; norm_num [Pillow.center]
    unfold source; rw [this]; rfl
  have s1 : source 4 2 1 = 3 := by
    have : ⌊Pillow.center 4 2 1⌋ = 3 := by rw [Int.floor_eq_iff]; norm_num [Pillow.center]
    unfold source; rw [this]; rfl
  have t0 : source 2 2 0 = 0 := by
    have : ⌊Pillow.center 2 2 0⌋ = 0 := by rw [Int.floor_eq_iff]; norm_num [Pillow.center]
    unfold source; rw [this]; rfl
  have t1 : source 2 2 1 = 1 := by
    have : ⌊Pillow.center 2 2 1⌋ = 1 := by rw [Int.floor_eq_iff]; norm_num [Pillow.center]
    unfold source; rw [this]; rfl
  have ra : resize (edge lo hi) 2 2 = .ok ⟨[2, 2], [lo, hi, lo, hi]⟩ := by
    simp [resize, edge, Arr.build, Arr.buildData, s0, s1, t0, t1, List.range_succ]
  have rb : resize ⟨[2, 4], [hi, lo, lo, lo, hi, lo, lo, lo]⟩ 2 2 = .ok ⟨[2, 2], [lo, lo, lo, lo]⟩ := by
    simp [resize, Arr.build, Arr.buildData, s0, s1, t0, t1, List.range_succ]
  have load : ∀ (p : String) (img j : Arr ℚ), img.shape = [2, 4] → resize img 2 2 = .ok j →
      Formats.matRead (edgeIO16 lo hi) p = .ok [("V", ⟨[2, 2, 2], [0, 0, 0, 0, 0, 0, 0, 0]⟩), ("I0", img), ("I1", img)] →
      LoadsImage (edgeIO16 lo hi) ⟨true, 2, 2⟩ p "I0" j := by
    intro p img j hs hr hread
    have hm : Formats.matImage (edgeIO16 lo hi) ⟨true, 2, 2⟩ img = .ok j := by
      unfold Formats.matImage
      rw [hs]
      exact hr
    have hf : Formats.matFlow (edgeIO16 lo hi) ⟨true, 2, 2⟩ ⟨[2, 2, 2], [0, 0, 0, 0, 0, 0, 0, 0]⟩ = .ok ⟨[2, 2, 2], [0, 0, 0, 0, 0, 0, 0, 0]⟩ := by rfl
    have l0 : List.lookup "V" [("V", (⟨[2, 2, 2], [0, 0, 0, 0, 0, 0, 0, 0]⟩ : Arr ℚ)), ("I0", img), ("I1", img)] = some ⟨[2, 2, 2], [0, 0, 0, 0, 0, 0, 0, 0]⟩ := rfl
    have l1 : List.lookup "I0" [("V", (⟨[2, 2, 2], [0, 0, 0, 0, 0, 0, 0, 0]⟩ : Arr ℚ)), ("I0", img), ("I1", img)] = some img := rfl
    have l2 : List.lookup "I1" [("V", (⟨[2, 2, 2], [0, 0, 0, 0, 0, 0, 0, 0]⟩ : Arr ℚ)), ("I0", img), ("I1", img)] = some img := rfl
    refine ⟨⟨⟨[2, 2, 2], [0, 0, 0, 0, 0, 0, 0, 0]⟩, some j, some j, some [p]⟩, ?_, .inl ⟨rfl, rfl⟩⟩
    simp only [Formats.matLoad, hread, l0, l1, l2, hm, hf, if_true]
  refine ⟨edgeIO16 lo hi, ⟨true, 2, 2⟩, edge lo hi, ⟨[2, 4], [hi, lo, lo, lo, hi, lo, lo, lo]⟩, ⟨[2, 2], [lo, hi, lo, hi]⟩, ⟨[2, 2], [lo, lo, lo, lo]⟩, rfl, by decide, by decide,
    ⟨⟨_, rfl, rfl⟩, rfl, 2, 4, rfl, by omega, by omega⟩, ⟨⟨_, rfl, rfl⟩, rfl, 2, 4, rfl, by omega, by omega⟩, ?_, load _ _ _ rfl ra rfl, load _ _ _ rfl rb rfl, by simp, ?_⟩
  · refine ⟨2, 4, rfl, rfl, fun y x hy hx => ?_⟩
    have : (y = 0 ∨ y = 1) ∧ (x = 0 ∨ x = 1 ∨ x = 2 ∨ x = 3) := by omega
    rcases this with ⟨rfl | rfl, rfl | rfl | rfl | rfl⟩ <;> rfl
  · simp [hne.symm]

/-- A file that meets the hypotheses of `C198_values16`: see `C198_refuted16` for the grey values 0 and 60000. -/
example : ∃ (io : Formats.MatIO) (c : Formats.MatCfg) (a ja : Arr ℚ), io.resizeImage = resize ∧ 0 < c.height ∧ 0 < c.width ∧ HasImage io "a" "I0" a ∧
    LoadsImage io c "a" "I0" ja ∧ 60000 ∈ ja.data := by
  obtain ⟨io, c, a, -, ja, -, h1, hh, hw, h2, -, -, h5, -, h7, -⟩ := C198_refuted16 0 60000 (by norm_num)
  exact ⟨io, c, a, ja, h1, hh, hw, h2, h5, h7⟩

end Verif.Nearest
