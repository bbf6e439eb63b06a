import Verif.Props.BicubicSymmetry
import Verif.Props.PillowSymmetry
/-!
# C199: resized image pairs move as the resized flow says

Pillow's default filter for the images (`Model/Bicubic.lean`), its bilinear filter for the flow (`Model/Pillow.lean`).
-/

namespace Verif.Bicubic
open Verif Finset

/-! ## Specification -/

/-- The second image is the first one moved `dy` rows down and `dx` columns to the right (up and to the left if negative), as far as both show the same part, and `margin` pixels away from
the border of either. -/
def Moved (margin : Nat) (dy dx : Int) (a b : Arr ℚ) : Prop :=
  ∃ h w, a.shape = [h, w] ∧ b.shape = [h, w] ∧
    ∀ y x y' x' : Nat, (y' : Int) = y + dy → (x' : Int) = x + dx →
      (margin ≤ y ∧ y + margin < h) → (margin ≤ y' ∧ y' + margin < h) → (margin ≤ x ∧ x + margin < w) → (margin ≤ x' ∧ x' + margin < w) →
      b.at? [y', x'] = a.at? [y, x]

/-! ## Proofs -/

/-- Away from the border, shrinking by a whole factor `s`: the five blocks of `s` pixels around output pixel `i`, with weights that do not depend on `i`. -/
private theorem interior {s m i : Nat} (hs : 0 < s) (h0 : 2 ≤ i) (h1 : i + 2 < m) (g : Nat → ℚ) :
    ∑ x ∈ range (s * m), g x * weight (s * m) m i x = ∑ d ∈ range (s * 5), g (s * (i - 2) + d) * cubic (((d : ℚ) + 1 / 2) / s - 5 / 2) := by
  have hsq : (0 : ℚ) < s := by exact_mod_cast hs
  have hm : (m : ℚ) ≠ 0 := by exact_mod_cast (show m ≠ 0 by omega)
  have hr : ((s * m : Nat) : ℚ) / m = s := by push_cast; field_simp
  have hF : Pillow.filterScale (s * m) m = s := by
    unfold Pillow.filterScale
    rw [hr]
    exact max_eq_right (by exact_mod_cast hs)
  have hw : ∀ x : Nat, weight (s * m) m i x = cubic (((x : ℚ) + 1 / 2) / s - (i + 1 / 2)) := by
    intro x
    unfold weight Pillow.center
    rw [hF, hr]
    congr 1
    field_simp
    ring
  have hsub : Finset.Ico (s * (i - 2)) (s * (i - 2) + s * 5) ⊆ range (s * m) := by
    intro x hx
    rw [Finset.mem_Ico] at hx
    rw [Finset.mem_range]
    calc x < s * (i - 2) + s * 5 := hx.2
      _ = s * (i - 2 + 5) := by ring
      _ ≤ s * m := Nat.mul_le_mul_left _ (by omega)
  rw [← Finset.sum_subset hsub, Finset.sum_Ico_eq_sum_range]
  · rw [show s * (i - 2) + s * 5 - s * (i - 2) = s * 5 by omega]
    refine Finset.sum_congr rfl (fun d _ => ?_)
    rw [hw]
    congr 2
    rw [Nat.cast_add, Nat.cast_mul, Nat.cast_sub h0]
    field_simp
    push_cast
    ring
  · intro x hx hnot
    rw [Finset.mem_Ico] at hnot
    rw [hw, cubic_far, mul_zero]
    rw [le_abs]
    by_cases h : x < s * (i - 2)
    · right
      have h' : (x : ℚ) + 1 ≤ s * ((i : ℚ) - 2) := by
        have : x + 1 ≤ s * (i - 2) := h
        have h2 : ((x + 1 : Nat) : ℚ) ≤ ((s * (i - 2) : Nat) : ℚ) := by exact_mod_cast this
        rw [Nat.cast_mul, Nat.cast_sub h0] at h2
        push_cast at h2
        exact h2
      have : ((x : ℚ) + 1 / 2) / s ≤ (i : ℚ) - 2 := by
        rw [div_le_iff₀ hsq]
        nlinarith
      linarith
    · left
      have h3 : s * (i - 2) + s * 5 ≤ x := by omega
      have h' : (s : ℚ) * ((i : ℚ) + 3) ≤ x := by
        have h2 : ((s * (i - 2) + s * 5 : Nat) : ℚ) ≤ (x : ℚ) := by exact_mod_cast h3
        rw [Nat.cast_add, Nat.cast_mul, Nat.cast_sub h0] at h2
        push_cast at h2
        linarith
      have : (i : ℚ) + 3 ≤ ((x : ℚ) + 1 / 2) / s := by
        rw [le_div_iff₀ hsq]
        nlinarith
      linarith

private theorem pass_moved (store : ℚ → ℚ) {s m i i' : Nat} (hs : 0 < s) (h0 : 2 ≤ i) (h1 : i + 2 < m) (h0' : 2 ≤ i') (h1' : i' + 2 < m) {f f' : Nat → ℚ}
    (hf : ∀ d, d < s * 5 → f' (s * (i' - 2) + d) = f (s * (i - 2) + d)) : pass store (s * m) m f' i' = pass store (s * m) m f i := by
  have hn : 0 < s * m := Nat.mul_pos hs (by omega)
  have ht := total_pos hn (show i < m by omega)
  have ht' := total_pos hn (show i' < m by omega)
  have e : total (s * m) m i' = total (s * m) m i := by
    have a1 := interior hs h0 h1 (fun _ => 1)
    have a2 := interior hs h0' h1' (fun _ => 1)
    simp only [one_mul] at a1 a2
    rw [total_eq, total_eq, a1, a2]
  rw [pass_sum store ht.ne', pass_sum store ht'.ne', e]
  congr 1
  simp only [← mul_div_assoc]
  rw [← Finset.sum_div, ← Finset.sum_div, interior hs h0' h1', interior hs h0 h1]
  congr 1
  exact Finset.sum_congr rfl (fun d hd => by rw [hf d (Finset.mem_range.1 hd)])

private theorem block_lt {s m i d : Nat} (h1 : i + 2 < m) (h0 : 2 ≤ i) (hd : d < s * 5) : s * (i - 2) + d < s * m := by
  calc s * (i - 2) + d < s * (i - 2) + s * 5 := by omega
    _ = s * (i - 2 + 5) := by ring
    _ ≤ s * m := Nat.mul_le_mul_left _ (by omega)

private theorem block_moved {s i i' d : Nat} {k : Int} (h : (i' : Int) = i + k) (h0 : 2 ≤ i) (h0' : 2 ≤ i') : ((s * (i' - 2) + d : Nat) : Int) = (s * (i - 2) + d : Nat) + s * k := by
  push_cast [Nat.cast_sub h0, Nat.cast_sub h0']
  rw [h]
  ring

/-! ## C199 -/

/-- **C199**, images: shrunk by whole factors `sy` and `sx` to the square requested, two images of which the second is the first one moved by `sy * ky` rows and `sx * kx` columns are loaded as
images of which the second is the first one moved by `ky` rows and `kx` columns, except for two pixels along the border. `store` is what a pass stores of a value (`id`, or `store8` for
8 bits). -/
theorem C199_images (store : ℚ → ℚ) {io : Formats.MatIO} {c : Formats.MatCfg} {p₁ p₂ k₁ k₂ : String} {a b ja jb : Arr ℚ} (hio : io.resizeImage = resize store)
    (m : Nat) (hm0 : 0 < m) (hH : c.height = m) (hW : c.width = m) (ha : HasImage io p₁ k₁ a) (hb : HasImage io p₂ k₂ b) (sy sx : Nat) (hy : 0 < sy) (hx : 0 < sx)
    (hs : a.shape = [sy * m, sx * m]) (ky kx : Int) (hm : Moved 0 (sy * ky) (sx * kx) a b)
    (la : LoadsImage io c p₁ k₁ ja) (lb : LoadsImage io c p₂ k₂ jb) : Moved 2 ky kx ja jb := by
  have ma := loaded_image ha la
  have mb := loaded_image hb lb
  obtain ⟨-, wa, -⟩ := ha
  obtain ⟨-, wb, -⟩ := hb
  obtain ⟨h', w', sa', sb, hat⟩ := hm
  have sa'' := sa'
  rw [hs] at sa'
  simp only [List.cons.injEq, and_true] at sa'
  obtain ⟨rfl, rfl⟩ := sa'
  unfold Formats.matImage at ma mb
  rw [hio, hH, hW] at ma mb
  rw [hs] at ma
  rw [sb] at mb
  split at ma
  · rename_i hne
    rw [if_pos hne] at mb
    obtain ⟨ra, ea, ta, -, va, -⟩ := resize_ok store hs hm0 hm0
    obtain ⟨rb, eb, tb, -, vb, -⟩ := resize_ok store sb hm0 hm0
    rw [ea] at ma
    rw [eb] at mb
    cases ma
    cases mb
    refine ⟨m, m, ta, tb, ?_⟩
    intro y x y' x' ey ex by0 by1 bx0 bx1
    rw [va y x (by omega) (by omega), vb y' x' (by omega) (by omega)]
    congr 1
    refine pass_moved store hy (by omega) (by omega) (by omega) (by omega) ?_
    intro d hd
    refine pass_moved store hx (by omega) (by omega) (by omega) (by omega) ?_
    intro e he
    have r1 := block_lt (s := sy) (m := m) (i := y) (d := d) (by omega) (by omega) hd
    have r2 := block_lt (s := sy) (m := m) (i := y') (d := d) (by omega) (by omega) hd
    have q1 := block_lt (s := sx) (m := m) (i := x) (d := e) (by omega) (by omega) he
    have q2 := block_lt (s := sx) (m := m) (i := x') (d := e) (by omega) (by omega) he
    have key := hat _ _ _ _ (block_moved (s := sy) (d := d) ey (by omega) (by omega)) (block_moved (s := sx) (d := e) ex (by omega) (by omega))
      ⟨Nat.zero_le _, r1⟩ ⟨Nat.zero_le _, r2⟩ ⟨Nat.zero_le _, q1⟩ ⟨Nat.zero_le _, q2⟩
    rw [at_some sb wb r2 q2, at_some hs wa r1 q1] at key
    exact Option.some.inj key
  · rename_i hne
    rw [if_neg hne] at mb
    cases ma
    cases mb
    have e : sy * m = m ∧ sx * m = m := by simpa using hne
    have e1 : sy = 1 := by
      have : sy * m = 1 * m := by omega
      exact Nat.eq_of_mul_eq_mul_right hm0 this
    have e2 : sx = 1 := by
      have : sx * m = 1 * m := by omega
      exact Nat.eq_of_mul_eq_mul_right hm0 this
    subst e1 e2
    refine ⟨_, _, sa'', sb, ?_⟩
    intro y x y' x' ey ex by0 by1 bx0 bx1
    exact hat y x y' x' (by push_cast; omega) (by push_cast; omega) (by omega) (by omega) (by omega) (by omega)

/-- **C199**: a file with two images, of which the second is the first one moved by `sy * ky` rows and `sx * kx` columns, and with the flow field that says so, is loaded at `1 / sy` of the height and
`1 / sx` of the width with two images, of which the second is the first one moved by `ky` rows and `kx` columns (except for two pixels along the border), and with the flow field that says so. -/
theorem C199_pair (store : ℚ → ℚ) {io : Formats.MatIO} {c : Formats.MatCfg} {p : String} {a b ja jb : Arr ℚ} (hio : io.resizeImage = resize store) (hfl : io.resizeFlow = Pillow.resize)
    (m : Nat) (hm0 : 0 < m) (hH : c.height = m) (hW : c.width = m) (ha : HasImage io p "I0" a) (hb : HasImage io p "I1" b) (sy sx : Nat) (hy : 0 < sy) (hx : 0 < sx)
    (hs : a.shape = [sy * m, sx * m]) (ky kx : Int) (hm : Moved 0 (sy * ky) (sx * kx) a b)
    (hV : Pillow.FileHas io p (sy * m) (sx * m) (fun k _ _ => if k = 0 then ((sx * kx : Int) : ℚ) else ((sy * ky : Int) : ℚ)))
    (la : LoadsImage io c p "I0" ja) (lb : LoadsImage io c p "I1" jb) (q : Nat → Nat → Nat → ℚ) (lq : Pillow.LoadsAs io c p q) :
    Moved 2 ky kx ja jb ∧ ∀ y x, y < m → x < m → q 0 y x = kx ∧ q 1 y x = ky := by
  refine ⟨C199_images store hio m hm0 hH hW ha hb sy sx hy hx hs ky kx hm la lb, ?_⟩
  obtain ⟨hh, hw, e⟩ := Pillow.loads_as hfl (by omega) (by omega) hV lq
  intro y x hy' hx'
  have hmq : (m : ℚ) ≠ 0 := by exact_mod_cast hm0.ne'
  have hsy : (sy : ℚ) ≠ 0 := by exact_mod_cast hy.ne'
  have hsx : (sx : ℚ) ≠ 0 := by exact_mod_cast hx.ne'
  rw [e 0 y x (by omega) (by omega) (by omega), e 1 y x (by omega) (by omega) (by omega)]
  unfold Pillow.loaded
  rw [hH, hW]
  simp only [if_true, one_ne_zero, if_false]
  have c1 : ∀ v : ℚ, Pillow.pass (sy * m) m (fun _ => Pillow.pass (sx * m) m (fun _ => v) x) y = v := by
    intro v
    rw [Pillow.pass_const hx' hw v, Pillow.pass_const hy' hh v]
  rw [c1, c1]
  constructor
  · push_cast
    field_simp
  · push_cast
    field_simp

/-! ## Example -/

/-- An image of 6 x 12 pixels, at the position `dx` columns to the right. -/
def scene (dx : ℚ) : Arr ℚ :=
  Arr.build [6, 12] (fun idx =>
    match idx with
    | [y, x] => 100 * y + ((x : ℚ) - dx) ^ 2
    | _ => 0)

/-- The flow field of the motion by two columns. -/
def sceneFlow : Arr ℚ :=
  Arr.build [6, 12, 2] (fun idx =>
    match idx with
    | [_, _, k] => if k = 0 then 2 else 0
    | _ => 0)

/-- A file with these. -/
def sceneIO : Formats.MatIO :=
  ⟨fun _ => .ok [("V", sceneFlow), ("I0", scene 0), ("I1", scene 2)], fun _ => false, fun _ => .error .valueError, resize id, Pillow.resize⟩

/-- It meets the hypotheses of `C199_pair` for the shape 6 x 6, with `sy = 1`, `sx = 2`, `ky = 0` and `kx = 1`. -/
example : HasImage sceneIO "a" "I0" (scene 0) ∧ HasImage sceneIO "a" "I1" (scene 2) ∧ (scene 0).shape = [1 * 6, 2 * 6] ∧
    Moved 0 ((1 : Nat) * 0) ((2 : Nat) * 1) (scene 0) (scene 2) ∧
    Pillow.FileHas sceneIO "a" (1 * 6) (2 * 6) (fun k _ _ => if k = 0 then (((2 : Nat) * 1 : Int) : ℚ) else (((1 : Nat) * 0 : Int) : ℚ)) := by
  refine ⟨⟨⟨_, rfl, rfl⟩, Arr.build_wf _ _, 6, 12, rfl, by omega, by omega⟩, ⟨⟨_, rfl, rfl⟩, Arr.build_wf _ _, 6, 12, rfl, by omega, by omega⟩, rfl, ⟨6, 12, rfl, rfl, ?_⟩,
    _, sceneFlow, rfl, rfl, Arr.build_wf _ _, .inl ⟨rfl, ?_⟩⟩
  · intro y x y' x' ey ex h1 h2 h3 h4
    unfold scene
    rw [Arr.at_build _ _ _ (Arr.offset2 (by omega) (by omega)), Arr.at_build _ _ _ (Arr.offset2 (by omega) (by omega))]
    have e1 : y' = y := by push_cast at ey; omega
    have e2 : x' = x + 2 := by push_cast at ex; omega
    rw [e1, e2]
    congr 1
    push_cast
    ring
  · intro k y x hk hy hx
    unfold sceneFlow
    rw [Arr.at_build _ _ _ (Arr.offset3 (by omega) (by omega) hk)]
    have : k = 0 ∨ k = 1 := by omega
    rcases this with rfl | rfl <;> norm_num

/-- And it is loaded. -/
example : ∃ s, Formats.matLoad sceneIO ⟨true, 6, 6⟩ "a" = .ok s ∧ s.flow.shape = [6, 6, 2] ∧ s.images1.isSome ∧ s.images2.isSome :=
  ⟨_, rfl, rfl, rfl, rfl⟩

end Verif.Bicubic
