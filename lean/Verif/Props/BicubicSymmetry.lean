import Verif.Props.Bicubic
/-!
# C198: mirror images of images

Resizing an image of a MAT file shifts nothing: the mirror image of an image is loaded as the mirror image of what the image is loaded as, with 8 bits and in floating point.
-/

namespace Verif.Bicubic
open Verif

/-! ## Specification -/

/-- `b` is the image `a` with the rows, the columns or both in the opposite order. -/
def Mirrored (rows cols : Bool) (a b : Arr ℚ) : Prop :=
  ∃ h w, a.shape = [h, w] ∧ b.shape = [h, w] ∧
    ∀ y x, y < h → x < w → b.at? [y, x] = a.at? [if rows then h - 1 - y else y, if cols then w - 1 - x else x]

/-- `d` is `α` times the image `a` plus `β` times the image `b`, pixel by pixel. -/
def Combined (α β : ℚ) (a b d : Arr ℚ) : Prop :=
  ∃ h w, a.shape = [h, w] ∧ b.shape = [h, w] ∧ d.shape = [h, w] ∧
    ∀ y x, y < h → x < w → ∃ u v, a.at? [y, x] = some u ∧ b.at? [y, x] = some v ∧ d.at? [y, x] = some (α * u + β * v)

/-! ## Proofs -/

private theorem cubic_neg (t : ℚ) : cubic (-t) = cubic t := by unfold cubic; rw [abs_neg]

private theorem weight_mirror {n m i x : Nat} (hi : i < m) (hx : x < n) : weight n m (m - 1 - i) (n - 1 - x) = weight n m i x := by
  unfold weight
  rw [Pillow.center_mirror hi, ← cubic_neg, Nat.cast_sub (by omega), Nat.cast_sub (by omega)]
  congr 1
  push_cast
  ring

private theorem total_mirror {n m i : Nat} (hi : i < m) : total n m (m - 1 - i) = total n m i := by
  rw [total_eq, total_eq, ← Finset.sum_range_reflect]
  exact Finset.sum_congr rfl (fun x hx => weight_mirror hi (Finset.mem_range.1 hx))

private theorem mirror (store : ℚ → ℚ) {n m i : Nat} (hi : i < m) (hn : 0 < n) {f g : Nat → ℚ} (hf : ∀ x, x < n → g x = f (n - 1 - x)) :
    pass store n m g i = pass store n m f (m - 1 - i) := by
  rw [pass_sum store (total_pos hn hi).ne', pass_sum store (total_pos hn (by omega)).ne', total_mirror hi]
  congr 1
  rw [← Finset.sum_range_reflect]
  refine Finset.sum_congr rfl (fun x hx => ?_)
  have hx' := Finset.mem_range.1 hx
  rw [hf _ (by omega), show n - 1 - (n - 1 - x) = x by omega, ← weight_mirror hi (show n - 1 - x < n by omega), show n - 1 - (n - 1 - x) = x by omega]

private theorem same (store : ℚ → ℚ) {n m i : Nat} (hi : i < m) (hn : 0 < n) {f g : Nat → ℚ} (hf : ∀ x, x < n → g x = f x) : pass store n m g i = pass store n m f i := by
  rw [pass_sum store (total_pos hn hi).ne', pass_sum store (total_pos hn hi).ne']
  congr 1
  exact Finset.sum_congr rfl (fun x hx => by rw [hf x (Finset.mem_range.1 hx)])

private theorem flip (store : ℚ → ℚ) (b : Bool) {n m i : Nat} (hi : i < m) (hn : 0 < n) {f g : Nat → ℚ} (hf : ∀ x, x < n → g x = f (if b then n - 1 - x else x)) :
    pass store n m g i = pass store n m f (if b then m - 1 - i else i) := by
  cases b
  · simp only [Bool.false_eq_true, if_false] at hf ⊢
    exact same store hi hn hf
  · simp only [if_true] at hf ⊢
    exact mirror store hi hn hf

theorem at_some {a : Arr ℚ} {h w y x : Nat} (hs : a.shape = [h, w]) (hwf : a.WF) (hy : y < h) (hx : x < w) : a.at? [y, x] = some (a.data.getD (y * w + x) 0) := by
  have hlen : a.data.length = h * w := by
    have := hwf
    unfold Arr.WF at this
    rw [this, hs]
    simp [Arr.size]
  have hlt : y * w + x < a.data.length := by
    rw [hlen]
    calc y * w + x < y * w + w := by omega
      _ = (y + 1) * w := by ring
      _ ≤ h * w := Nat.mul_le_mul_right _ hy
  unfold Arr.at?
  rw [hs]
  simp only [Arr.offset, hy, hx, if_true, Option.map_some, Arr.size, List.foldr, Nat.mul_one, Option.bind_some, Nat.add_zero]
  rw [List.getD_eq_getElem?_getD, List.getElem?_eq_getElem hlt, Option.getD_some]

/-! ## C198, mirror images -/

/-- **C198**, mirror images: if the image of one file is the mirror image of that of another, so are the images they are loaded as. `store` is what a pass stores of a value (`id`, or
`store8` for 8 bits). -/
theorem C198_mirror (store : ℚ → ℚ) {io : Formats.MatIO} {c : Formats.MatCfg} {p₁ p₂ k₁ k₂ : String} {a b ja jb : Arr ℚ} (hio : io.resizeImage = resize store)
    (hH : 0 < c.height) (hW : 0 < c.width) (ha : HasImage io p₁ k₁ a) (hb : HasImage io p₂ k₂ b) (rows cols : Bool) (hm : Mirrored rows cols a b)
    (la : LoadsImage io c p₁ k₁ ja) (lb : LoadsImage io c p₂ k₂ jb) : Mirrored rows cols ja jb := by
  have ma := loaded_image ha la
  have mb := loaded_image hb lb
  obtain ⟨-, wa, h, w, sa, hh, hw⟩ := ha
  obtain ⟨-, wb, -⟩ := hb
  have hm' := hm
  obtain ⟨h', w', sa', sb, hat⟩ := hm'
  rw [sa] at sa'
  simp only [List.cons.injEq, and_true] at sa'
  obtain ⟨rfl, rfl⟩ := sa'
  unfold Formats.matImage at ma mb
  rw [hio] at ma mb
  rw [sa] at ma
  rw [sb] at mb
  split at ma
  · rename_i hne
    rw [if_pos hne] at mb
    obtain ⟨ra, ea, ta, -, va, -⟩ := resize_ok store sa hH hW
    obtain ⟨rb, eb, tb, -, vb, -⟩ := resize_ok store sb hH hW
    rw [ea] at ma
    rw [eb] at mb
    cases ma
    cases mb
    refine ⟨c.width, c.height, ta, tb, ?_⟩
    intro y x hy hx
    have hy' : (if rows then c.width - 1 - y else y) < c.width := by split <;> omega
    have hx' : (if cols then c.height - 1 - x else x) < c.height := by split <;> omega
    rw [va _ _ hy' hx', vb y x hy hx]
    congr 1
    refine flip store rows hy hh ?_
    intro r hr
    refine flip store cols hx hw ?_
    intro i hi
    have hr' : (if rows then h - 1 - r else r) < h := by split <;> omega
    have hi' : (if cols then w - 1 - i else i) < w := by split <;> omega
    have e := hat r i hr hi
    rw [at_some sb wb hr hi, at_some sa wa hr' hi'] at e
    exact Option.some.inj e
  · rename_i hne
    rw [if_neg hne] at mb
    cases ma
    cases mb
    exact hm

/-! ## C198, linearity -/

private theorem linear {n m i : Nat} (hi : i < m) (hn : 0 < n) {α β : ℚ} {f g k : Nat → ℚ} (hf : ∀ x, x < n → k x = α * f x + β * g x) :
    pass id n m k i = α * pass id n m f i + β * pass id n m g i := by
  have ht := (total_pos hn hi).ne'
  rw [pass_sum id ht, pass_sum id ht, pass_sum id ht]
  show ∑ x ∈ Finset.range n, k x * (weight n m i x / total n m i) = α * ∑ x ∈ Finset.range n, f x * (weight n m i x / total n m i) +
    β * ∑ x ∈ Finset.range n, g x * (weight n m i x / total n m i)
  rw [Finset.mul_sum, Finset.mul_sum, ← Finset.sum_add_distrib]
  refine Finset.sum_congr rfl (fun x hx => ?_)
  rw [hf x (Finset.mem_range.1 hx)]
  ring

/-- **C198**, linearity: with floating-point images, a brighter copy of an image is loaded as a brighter copy, and the sum of two images as the sum. -/
theorem C198_linear {io : Formats.MatIO} {c : Formats.MatCfg} {p₁ p₂ p₃ k₁ k₂ k₃ : String} {a b d ja jb jd : Arr ℚ} (hio : io.resizeImage = resize id)
    (hH : 0 < c.height) (hW : 0 < c.width) (ha : HasImage io p₁ k₁ a) (hb : HasImage io p₂ k₂ b) (hd : HasImage io p₃ k₃ d) {α β : ℚ} (hm : Combined α β a b d)
    (la : LoadsImage io c p₁ k₁ ja) (lb : LoadsImage io c p₂ k₂ jb) (ld : LoadsImage io c p₃ k₃ jd) : Combined α β ja jb jd := by
  have ma := loaded_image ha la
  have mb := loaded_image hb lb
  have md := loaded_image hd ld
  obtain ⟨-, wa, h, w, sa, hh, hw⟩ := ha
  obtain ⟨-, wb, -⟩ := hb
  obtain ⟨-, wd, -⟩ := hd
  have hm' := hm
  obtain ⟨h', w', sa', sb, sd, hat⟩ := hm'
  rw [sa] at sa'
  simp only [List.cons.injEq, and_true] at sa'
  obtain ⟨rfl, rfl⟩ := sa'
  unfold Formats.matImage at ma mb md
  rw [hio] at ma mb md
  rw [sa] at ma
  rw [sb] at mb
  rw [sd] at md
  split at ma
  · rename_i hne
    rw [if_pos hne] at mb md
    obtain ⟨ra, ea, ta, -, va, -⟩ := resize_ok id sa hH hW
    obtain ⟨rb, eb, tb, -, vb, -⟩ := resize_ok id sb hH hW
    obtain ⟨rd, ed, td, -, vd, -⟩ := resize_ok id sd hH hW
    rw [ea] at ma
    rw [eb] at mb
    rw [ed] at md
    cases ma
    cases mb
    cases md
    refine ⟨c.width, c.height, ta, tb, td, ?_⟩
    intro y x hy hx
    refine ⟨_, _, va y x hy hx, vb y x hy hx, ?_⟩
    rw [vd y x hy hx]
    congr 1
    refine linear hy hh ?_
    intro r hr
    refine linear hx hw ?_
    intro i hi
    obtain ⟨u, v, e1, e2, e3⟩ := hat r i hr hi
    rw [at_some sa wa hr hi] at e1
    rw [at_some sb wb hr hi] at e2
    rw [at_some sd wd hr hi] at e3
    rw [Option.some.inj e1, Option.some.inj e2, Option.some.inj e3]
  · rename_i hne
    rw [if_neg hne] at mb md
    cases ma
    cases mb
    cases md
    exact hm

/-! ## C198, one direction only -/

/-- A pass that keeps the number of pixels changes nothing (Pillow leaves it out). -/
private theorem pass_same (store : ℚ → ℚ) {n i : Nat} (hi : i < n) (f : Nat → ℚ) : pass store n n f i = store (f i) := by
  have hn : (n : ℚ) ≠ 0 := by exact_mod_cast (show n ≠ 0 by omega)
  have hw : ∀ x, weight n n i x = if x = i then 1 else 0 := by
    intro x
    have e : ((x : ℚ) - Pillow.center n n i + 1 / 2) * (1 / Pillow.filterScale n n) = (x : ℚ) - i := by
      unfold Pillow.center Pillow.filterScale
      rw [div_self hn, max_self]
      ring
    unfold weight
    rw [e]
    split
    · rename_i h
      rw [h, sub_self]
      unfold cubic
      norm_num
    · rename_i h
      have h1 : (1 : ℚ) ≤ |(x : ℚ) - i| := by
        have : (1 : Int) ≤ |(x : Int) - i| := Int.one_le_abs (by omega)
        exact_mod_cast this
      have h2 : |(x : ℚ) - i| < 2 → |(x : ℚ) - i| = 1 := by
        intro h2
        have a1 : (1 : Int) ≤ |(x : Int) - i| := by exact_mod_cast h1
        have a2 : |(x : Int) - i| < (2 : Int) := by exact_mod_cast h2
        have a3 : |(x : Int) - i| = 1 := by omega
        exact_mod_cast a3
      unfold cubic
      rw [if_neg (by linarith)]
      split
      · rename_i h3
        rw [h2 h3]
        norm_num
      · rfl
  have ht : total n n i = 1 := by
    rw [total_eq]
    simp only [hw]
    rw [Finset.sum_ite_eq' (Finset.range n) i, if_pos (Finset.mem_range.2 hi)]
  rw [pass_sum store (by rw [ht]; exact one_ne_zero), ht]
  congr 1
  simp only [hw, div_one, mul_ite, mul_one, mul_zero]
  rw [Finset.sum_ite_eq' (Finset.range n) i, if_pos (Finset.mem_range.2 hi)]

/-- **C198**, one direction only: if the number of rows does not change, no row has an influence on another one: images that agree in a row are loaded as images that agree in that row. -/
theorem C198_rows (store : ℚ → ℚ) {io : Formats.MatIO} {c : Formats.MatCfg} {p₁ p₂ k₁ k₂ : String} {a b ja jb : Arr ℚ} (hio : io.resizeImage = resize store)
    (hH : 0 < c.height) (hW : 0 < c.width) (ha : HasImage io p₁ k₁ a) (hb : HasImage io p₂ k₂ b) {n : Nat} (hs : a.shape = [c.width, n]) (hs' : b.shape = [c.width, n]) (y : Nat)
    (hy : y < c.width) (hab : ∀ x, x < n → a.at? [y, x] = b.at? [y, x]) (la : LoadsImage io c p₁ k₁ ja) (lb : LoadsImage io c p₂ k₂ jb) (x : Nat) :
    ja.shape = jb.shape ∧ (ja.at? [y, x] = jb.at? [y, x]) := by
  have ma := loaded_image ha la
  have mb := loaded_image hb lb
  obtain ⟨-, wa, h, w, sa, hh, hw⟩ := ha
  obtain ⟨-, wb, -⟩ := hb
  have hn : 0 < n := by
    rw [hs] at sa
    simp only [List.cons.injEq, and_true] at sa
    omega
  unfold Formats.matImage at ma mb
  rw [hio] at ma mb
  rw [hs] at ma
  rw [hs'] at mb
  split at ma
  · rename_i hne
    rw [if_pos hne] at mb
    obtain ⟨ra, ea, ta, -, va, -⟩ := resize_ok store hs hH hW
    obtain ⟨rb, eb, tb, -, vb, -⟩ := resize_ok store hs' hH hW
    rw [ea] at ma
    rw [eb] at mb
    cases ma
    cases mb
    refine ⟨by rw [ta, tb], ?_⟩
    by_cases hx : x < c.height
    · rw [va y x hy hx, vb y x hy hx, pass_same store hy, pass_same store hy]
      congr 2
      refine same store hx hn ?_
      intro i hi
      have e := hab i hi
      rw [at_some hs wa hy hi, at_some hs' wb hy hi] at e
      exact Option.some.inj e
    · have none_of : ∀ r : Arr ℚ, r.shape = [c.width, c.height] → r.at? [y, x] = none := by
        intro r hr
        unfold Arr.at?
        rw [hr]
        simp [Arr.offset, hx]
      rw [none_of _ ta, none_of _ tb]
  · rename_i hne
    rw [if_neg hne] at mb
    cases ma
    cases mb
    refine ⟨by rw [hs, hs'], ?_⟩
    by_cases hx : x < n
    · exact hab x hx
    · have none_of : ∀ r : Arr ℚ, r.shape = [c.width, n] → r.at? [y, x] = none := by
        intro r hr
        unfold Arr.at?
        rw [hr]
        simp [Arr.offset, hx]
      rw [none_of _ hs, none_of _ hs']

/-! ## Example -/

/-- Two files, with images of the same first row. -/
def rowIO : Formats.MatIO :=
  { edgeIO store8 0 100 with
    scipy := fun p =>
      let img := if p = "a" then edge 0 100 else ⟨[2, 4], [0, 0, 0, 100, 7, 7, 7, 7]⟩
      .ok [("V", ⟨[2, 2, 2], [0, 0, 0, 0, 0, 0, 0, 0]⟩), ("I0", img), ("I1", img)] }

/-- They meet the hypotheses of `C198_rows`. -/
example : rowIO.resizeImage = resize store8 ∧ HasImage rowIO "a" "I0" (edge 0 100) ∧ HasImage rowIO "b" "I0" ⟨[2, 4], [0, 0, 0, 100, 7, 7, 7, 7]⟩ ∧
    ∀ x, x < 4 → (edge 0 100).at? [0, x] = (⟨[2, 4], [0, 0, 0, 100, 7, 7, 7, 7]⟩ : Arr ℚ).at? [0, x] := by
  refine ⟨rfl, ⟨⟨_, rfl, rfl⟩, rfl, 2, 4, rfl, by omega, by omega⟩, ⟨⟨_, rfl, rfl⟩, rfl, 2, 4, rfl, by omega, by omega⟩, fun x hx => ?_⟩
  have : x = 0 ∨ x = 1 ∨ x = 2 ∨ x = 3 := by omega
  rcases this with rfl | rfl | rfl | rfl <;> rfl

/-- Loaded for 2 x 2, they agree in the first row. -/
example : (∃ s, Formats.matLoad rowIO ⟨true, 2, 2⟩ "a" = .ok s ∧ s.images1 = some ⟨[2, 2], [0, 46, 0, 46]⟩) ∧
    ∃ s, Formats.matLoad rowIO ⟨true, 2, 2⟩ "b" = .ok s ∧ s.images1 = some ⟨[2, 2], [0, 46, 7, 7]⟩ := by
  refine ⟨⟨_, rfl, ?_⟩, _, rfl, ?_⟩ <;> decide +kernel

/-- Three files: an image, a uniform one, and three times the first plus twice the second. -/
def sumIO : Formats.MatIO :=
  { edgeIO id 0 121 with
    scipy := fun p =>
      let img := if p = "a" then edge 0 121 else if p = "b" then edge 5 5 else edge 10 373
      .ok [("V", ⟨[2, 2, 2], [0, 0, 0, 0, 0, 0, 0, 0]⟩), ("I0", img), ("I1", img)] }

/-- They meet the hypotheses. -/
example : sumIO.resizeImage = resize id ∧ HasImage sumIO "a" "I0" (edge 0 121) ∧ HasImage sumIO "b" "I0" (edge 5 5) ∧ HasImage sumIO "c" "I0" (edge 10 373) ∧
    Combined 3 2 (edge 0 121) (edge 5 5) (edge 10 373) := by
  refine ⟨rfl, ⟨⟨_, rfl, rfl⟩, rfl, 2, 4, rfl, by omega, by omega⟩, ⟨⟨_, rfl, rfl⟩, rfl, 2, 4, rfl, by omega, by omega⟩,
    ⟨⟨_, rfl, rfl⟩, rfl, 2, 4, rfl, by omega, by omega⟩, 2, 4, rfl, rfl, rfl, fun y x hy hx => ?_⟩
  have : (y = 0 ∨ y = 1) ∧ (x = 0 ∨ x = 1 ∨ x = 2 ∨ x = 3) := by omega
  rcases this with ⟨rfl | rfl, rfl | rfl | rfl | rfl⟩ <;> refine ⟨_, _, rfl, rfl, ?_⟩ <;> decide +kernel

/-- All three are loaded. -/
example : (∃ s, Formats.matLoad sumIO ⟨true, 2, 2⟩ "a" = .ok s ∧ s.images1.isSome) ∧ (∃ s, Formats.matLoad sumIO ⟨true, 2, 2⟩ "b" = .ok s ∧ s.images1.isSome) ∧
    ∃ s, Formats.matLoad sumIO ⟨true, 2, 2⟩ "c" = .ok s ∧ s.images1.isSome :=
  ⟨⟨_, rfl, rfl⟩, ⟨_, rfl, rfl⟩, _, rfl, rfl⟩

/-- Two files: an image, and the same from right to left. -/
def mirrorIO (store : ℚ → ℚ) : Formats.MatIO :=
  { edgeIO store 0 100 with
    scipy := fun p => .ok [("V", ⟨[2, 2, 2], [0, 0, 0, 0, 0, 0, 0, 0]⟩), ("I0", edge 0 100),
      ("I1", if p = "a" then edge 0 100 else ⟨[2, 4], [100, 0, 0, 0, 100, 0, 0, 0]⟩)] }

/-- They meet the hypotheses. -/
example : HasImage (mirrorIO store8) "a" "I1" (edge 0 100) ∧ HasImage (mirrorIO store8) "b" "I1" ⟨[2, 4], [100, 0, 0, 0, 100, 0, 0, 0]⟩ ∧
    Mirrored false true (edge 0 100) ⟨[2, 4], [100, 0, 0, 0, 100, 0, 0, 0]⟩ :=
  ⟨⟨⟨_, rfl, rfl⟩, rfl, 2, 4, rfl, by omega, by omega⟩, ⟨⟨_, rfl, rfl⟩, rfl, 2, 4, rfl, by omega, by omega⟩, 2, 4, rfl, rfl, fun y x hy hx => by
    have : (y = 0 ∨ y = 1) ∧ (x = 0 ∨ x = 1 ∨ x = 2 ∨ x = 3) := by omega
    rcases this with ⟨rfl | rfl, rfl | rfl | rfl | rfl⟩ <;> rfl⟩

/-- Loaded for 2 x 2 with 8 bits, the second is the first from right to left. -/
example : (∃ s, Formats.matLoad (mirrorIO store8) ⟨true, 2, 2⟩ "a" = .ok s ∧ s.images2 = some ⟨[2, 2], [0, 46, 0, 46]⟩) ∧
    ∃ s, Formats.matLoad (mirrorIO store8) ⟨true, 2, 2⟩ "b" = .ok s ∧ s.images2 = some ⟨[2, 2], [46, 0, 46, 0]⟩ := by
  refine ⟨⟨_, rfl, ?_⟩, _, rfl, ?_⟩ <;> decide +kernel

end Verif.Bicubic
